# Formal model of webauthn-rp: design

The subject is the Python package `webauthn_rp` in `/repo` together with the
example application `examples/flask` (`app.py` and its page
`templates/app.html`).  The model is Lean 4 (Mathlib where handy), under
`lean/Verif/`.  `properties.jsonl` lists the properties C01…; `MANIFEST.json`
maps them to theorems; `seeded/LOG.jsonl` records attempts to deceive the
theorems with wrong programs (section 6).

## 1. How the code is modelled

* One Lean function per Python function, branch by branch, in the same order,
  citing file and lines.  A Python exception is a value of the type `Exc`; a
  function returns `Except Exc α` (written `Py α`).  `Exc` has one constructor per
  library error class and per foreign exception class that some `except` clause of
  the package can distinguish, one for "any other `Exception`", one for "a
  `BaseException` that is not an `Exception`".
* `bytes` is `List UInt8`; `str` is `String` (a sequence of Unicode scalar
  values: strings with lone surrogates are not represented); a dynamically typed
  value (result of `json.loads` / `cbor2.load`) is the inductive `PyVal`, which keeps
  the distinctions the code can see (`type(x)`, `None`, key equality
  `1 == True == 1.0`).
* Dependencies are fields of a structure `Env`: `json.loads`, `cbor2.load`,
  `hashlib.sha256`, X.509 loading, EC point validation, signature
  verification, the DER decoder, and two corner functions of `urllib`.  Every
  theorem is for **all** `Env`, so it holds whatever these functions return or
  raise.  Where a theorem needs a law the law is an explicit hypothesis:
  `CodecLaws` (CBOR decoding inverts encoding, for the values that the encoder of the
  specification produces), `JsonLaw` (`json.loads` reads the JSON texts of RFC
  8259 as RFC 8259 says; see `Spec/JsonGrammar.lean` for the exact fragment),
  `RowIdLaw` (SQLite reads a decimal text as the number).  A concrete
  executable codec that satisfies each law is defined and proved in `Codec/`, so no
  such hypothesis is empty.
* `base64`, UTF-8, `urllib.parse.urlparse`, `struct`, `int.from_bytes`, and in the page
  `btoa`, `atob` and `JSON.stringify`, are modelled concretely.
* A registrar is an arbitrary state type `σ` with three state-transforming
  methods that may raise or return anything.  A ceremony handler is a function
  `σ → Except Exc Unit × σ`.  For crashes and concurrency (`Model/Interaction.lean`)
  it is a tree of registrar calls that can be interleaved or cut; it is proved to
  agree with the function (C53).
* Builders and options are objects in a heap with references, so that sharing
  and mutation can be seen (`Model/Heap.lean`).
* The example application is a transition system: an event is a request with the
  random numbers and the time it sees; the database is three tables.  Only C81 says how the random
  numbers are drawn: uniformly and independently (`Spec/Random.lean`).
* The page is a set of functions from replies to arguments of
  `navigator.credentials` and from credentials to forms; an honest browser and
  authenticator are relations (`Spec/Page.lean`).  Its buttons start flows that interleave at
  every `await` (`Model/PageFlow.lean`).

Property theorems are in `lean/Verif/Props/`, stated against small
specification definitions in `lean/Verif/Spec/` that do not use the model's
helper functions (for instance "bit 0 of byte 32 of the authenticator data"
and not "the parsed flags field").  Lemmas are in `lean/Verif/Lemmas/`.
Every theorem with hypotheses has an `example` or a witness theorem that shows
that the hypotheses are met by a non-trivial case: next to it, or in the
demonstration files `Props/Demo.lean` (registration and authentication with the
concrete codecs and toy cryptography), `Props/DemoRich.lean` (the same with token
binding, extensions and several origins), `Props/FlaskDemo.lean` (a run of the
application), `Props/FlaskThreadsDemo.lean` and `Props/FlaskAtomicDemo.lean` (runs with
overlapping requests),
`Props/FlaskOutcomeDemo.lean` (outcomes of single requests),
`Props/PhishingDemo.lean` (approvals, a phishing page, a stranger),
`Props/LockoutDemo.lean` (a login after an attack),
`Props/IsolationDemo.lean` (histories that differ in what others do),
`Props/FlaskFaultsDemo.lean` (runs with statements that fail),
`Props/PageDemo.lean` (a run of the page and the application), and
`Props/Instances.lean` (the theorems applied to these worlds).

If a property is false of the code, the negation is proved with a concrete
witness (`…_refuted`) and the part that does hold is proved under the suffix
`_partial`.  Where a few lines stand between the code and the property, a variant
of the function with these lines changed is defined (`Model/Repaired.lean`,
`Model/FlaskRepaired.lean`, `Model/FlaskOwned.lean`, `Model/FlaskAtomic.lean`, `Model/Choosy.lean`, `Model/Guards.lean`, `Model/Locked.lean`, `Model/Initial.lean`, `Model/KeyUse.lean`, `Model/RepairedU2F.lean`, `Model/RepairedAndroid.lean`, `Model/RepairedClient.lean`, `Model/LockedBackend.lean`, `Model/SomeCredential.lean`, `Model/Swept.lean`, `Model/Package.lean`, `Model/Counterless.lean`, `Model/Whole.lean`, `Model/Discreet.lean`, `Model/Binding.lean`, `Model/Expired.lean`, `Model/OneRoute.lean`, `Model/AutoKeys.lean`,
`Model/RepairedExtensions.lean`; they are marked as not being code of the repository) and the
whole property is proved of it (`…_repaired_…`).  These theorems are about the variant
and do not turn the claim into a proved one.

## 2. Modules

| model | code |
|-------|------|
| `Model/Py` | Python values, exceptions (errors.py), dictionaries, `int.from_bytes`, floats |
| `Model/Types` | types.py: enumerations, keys, credentials, authenticator data, statements |
| `Model/Env` | the dependencies |
| `Model/Base64`, `Model/Url` | `base64`, `urllib.parse` as far as the package uses them |
| `Model/Utils` | utils.py: `url_base64_*`, case conversion, curve/hash tables |
| `Model/Parsers` | parsers.py, validators.py |
| `Model/Asn1` | asn1.py: the schema of the Android key description; `Codec/Der` gives DER decoding for it |
| `Model/Attesters` | attesters.py |
| `Model/Converters` | converters.py (keys), verifiers.py |
| `Model/Jsonify` | converters.py (`jsonify`), utils.py (JSON names) |
| `Model/Options` | types.py: option classes; builders.py; constants.py |
| `Model/TypesObj` | types.py: the attributes of the other classes, as `jsonify` sees them |
| `Model/Heap` | builders.py and options as mutable objects |
| `Model/Backend`, `Model/Interface` | backends.py; argument types of the handlers |
| `Model/Interaction` | backends.py as a sequence of registrar calls |
| `Model/Registrar` | registrars.py: the base class |
| `Model/Flask` | examples/flask/app.py: tables, registrar, endpoints |
| `Model/FlaskThreads` | the same endpoints as sequences of database statements of overlapping requests |
| `Model/FlaskFaults` | the same with statements that fail |
| `Model/Lifecycle` | examples/flask/app.py: its main part, with processes that are started, stopped and killed; its repaired variant (`careful`) |
| `Model/Kills` | examples/flask/app.py: the endpoints, statement by statement, in a process that is killed and started again at any time |
| `Model/Retry` | not code of the repository: the registrar of examples/flask/app.py with a look at what is stored (C111) |
| `Model/Together` | not code of the repository: `registration_request` of examples/flask/app.py with one commit for the user and the challenge (C113) |
| `Model/Page` | examples/flask/templates/app.html: options, credentials, forms |
| `Model/PageFlow` | the same: the buttons, status texts and asynchronous flows; its repaired variant (`own`) |
| `Model/Optimised` | every function of the package and the example that contains an assertion, and its callers, under `python -O` |
| `Model/Restore`, `Model/Revoke`, `Model/Accounts` | not code: what an operator does to the tables of the example between requests (puts back a copy, deletes credentials, deletes accounts) |
| `Model/Repaired`, `Model/FlaskRepaired`, `Model/FlaskOwned`, `Model/FlaskAtomic`, `Model/Choosy`, `Model/Guards`, `Model/Locked`, `Model/Initial`, `Model/KeyUse`, `Model/RepairedU2F`, `Model/RepairedAndroid`, `Model/RepairedClient`, `Model/LockedBackend`, `Model/SomeCredential`, `Model/Swept`, `Model/Package`, `Model/Counterless`, `Model/Whole`, `Model/Discreet`, `Model/RepairedExtensions`, `Model/Binding`, `Model/Expired`, `Model/OneRoute`, `Model/AutoKeys` | not code: repaired variants |

`Tests/` holds the cases of the repository's test suite, as tests of the model.

`Codec/` holds executable codecs that meet the laws: `Cbor`, `CborLaws`, `Json`
(a JSON parser proved to read the whole grammar of `Spec/JsonGrammar`), `Der`, `Ordinary`
(a world in which CBOR maps look as usual).

## 3. Properties and how each is treated

| id | modelled as | proof |
|----|-------------|-------|
| C01–C13 | success of the handler function implies a predicate on raw inputs | case analysis along the handler, all `Env`, all registrars |
| C14 | state component of the handler result; a recording registrar | same |
| C15 | class of the error component | same; the classes of Python's exceptions are in `Spec/Exceptions` |
| C16 | error component given registrar result | same |
| C17, C18 | `success ↔ specification` | both directions; C18 fails for the formats of F1 |
| C19 | false (F1): refuted, and the `none` part proved | |
| C20 | false (F4): refuted; a registrar can make the comparison itself | |
| C21, C22, C23 | `attest … = ok … ↔ specification` | unfolding |
| C24–C26, C29 | parser on arbitrary bytes, against an independent layout predicate / encoder | list arithmetic, CBOR laws |
| C27, C28 | `parse_cose_key ∘ cose_key`; C27 is false as stated (F2): refuted, and proved exactly when `base_IV` is absent or `key_ops` present | |
| C30–C34 | `parser d = ok r ↔ spec d r` | |
| C35 | false (F9): refuted with the concrete codec | |
| C36, C37 | concrete `urlparse`; C37 is false (F3): refuted, and what the comparison does tell apart is stated exactly; accepted origins that are ASCII serialisations are literally listed | induction on characters |
| C38, C39 | concrete base64 / case functions against positional specifications | induction |
| C40 | inductive object graph; false (F11): `jsonify` passes `NaN` and infinities through and shows an enumeration member with the value `None` as null; proved for a repaired variant | structural induction |
| C41 | the JSON of the options, member by member | computation |
| C42, C43, C55 | objects in a heap | induction over histories |
| C44–C46 | decision logic | case analysis |
| C47, C48 | transition system over registrar states; C48 is false (F10): refuted; proved for registrars that compare and set, and for handlers behind a lock per credential or one lock (`Model/LockedBackend`), which also run as if one after another | invariant by induction; explicit schedule |
| C49–C51 | transition system of the example application; C51 is false (F8) | invariant by induction; witness history |
| C52 | any honest client data (JSON of any layout), encoders, laws | computation with laws |
| C53 | tree of registrar calls, cut at any point | |
| C54 | per check: earlier checks pass and this one fails ⇒ the documented class | |
| C56 | honest responses in any run of the application | C52 and the invariant |
| C57 | replies through the page to an honest browser and back | C56, base64 and JSON |
| C58 | schema-directed DER decoding against X.690 and the documented key description | induction on the schema |
| C59 | the base registrar in the handlers | case analysis |
| C60 | `handler = (result, state) ↔ outcome relation`, no hypotheses | error analysis of every stage |
| C61 | `parser = error x ↔ refusal relation`, no hypotheses | same |
| C62 | `attest = error x ↔ refusal relation`; the repaired backend's outcome; assumes that decoded key descriptions have the type of the schema (`DerTyped`, proved of `Codec/Der`) | same; induction on the schema |
| C63 | an endpoint is a tree of statements; a schedule picks the request whose statement is executed next; proved to agree with `Model/Flask` for a request that is not interrupted | invariant by rely/guarantee; witness schedules for the three false parts (F20, F21); all parts of `Model/FlaskAtomic`, by simulation in the application of the repository |
| C64 | `step = (reply, tables)` ↔ outcome relation over the rows of the tables; consistency of the tables is an invariant | C60, C61, C41, uniqueness of rows; invariant of C63 |
| C65 | approvals of the holder of a key; unforgeability and collision freedom as hypotheses about what was submitted; login → approval on the page | C49, C50, C63, uniqueness of registrations |
| C66 | `OwnerOnly` over the reply function; first registration under a name | run with a stranger (F16) refutes it; proved of `Model/FlaskOwned` by the history of the events that are not refused |
| C67 | an injective assignment of approvals to logins | strictly growing counters (C47) give distinct approvals; witness schedule for the false part (F21); proved of `Model/FlaskAtomic` |
| C68 | a second model of the functions with assertions and of their callers (`Model/Optimised`) in which assertions are not executed | the two programs differ at most in which of three built-in exceptions is raised, and the handlers turn these into the same error |
| C69 | the approvals of C65, with the arguments of the call in place of the application | from C17 and the hypotheses about the holder; the challenge in the approval is the expected one |
| C70 | the holder of C65; histories and schedules of C50 and C63 | from C56 and C63 with C65: every stored counter is that of an approval, so it is smaller than the counter of the new response |
| C71 | `KeyAlg`, the algorithm a key names; `RequestedOnly` over the reply function | a run with a key for ES384 (F23) refutes it; proved of every registrar that checks the algorithm (`Model/Choosy`) |
| C72 | `Profile`: curve of the algorithm, no optional members | the same run (F24) refutes it; proved, as an equivalence, of every registrar that checks the key |
| C73 | `Fault`, chosen for each statement of a schedule; `Failed`, the answers to failures; `Succeeded`, told or failed after an effect | simulation by a schedule without faults (`simulates`), then C63, C65, C67 and C70 there |
| C74 | `Atob`, the forgiving-base64 decode as a relation; `Changed`, an object with one member replaced in its place | equivalences by induction on texts, objects and arrays |
| C75 | `CredentialJson`, `KeyJson`, `AuthDataJson`, `StmtJson`, ...: JSON objects given by their members in any order, with the texts and numbers of RFC 8152 and Web Authentication | refuted for `Origin` (F25); proved for every other type, and for all types when named tuples are converted by their fields (`Datum.fieldsObj`); the round trip through the exact specification of the parser (C30) |
| C76 | `Alike`: the handle, the credentials and the challenges that two databases have in common; `Matched`: pairs of histories | proved with the exact outcome of every request (C64) |
| C77 | `HasAccount`, `withAccount`, `HidesAccounts` over the replies | refuted for every instance of the application (F26), with equivalences; proved of requests that begin a registration; with four changes (`Model/Discreet`) non-interference is proved by a simulation of any two databases that differ in the account, for all sequences of requests of a `Visitor` |
| C78 | `Tells` (the literal texts), `Accepted` over the requests that the application handled, `Coherent` over what passes between user, page, browser and application, `Undisturbed`, `OneAtATime`, `MaySay` (all texts of the page) | refuted (F27); proved if flows do not disturb each other, and of flows with variables of their own; the names used are names that were clicked, however flows overlap; invariants over all interleavings |
| C79 | `Documented`, `Position` (types.py 504-547, 716-747) over real values of numbers, `LocationDelivered` | refuted (F28); exact for types; the repaired parser accepts exactly these |
| C80 | `AppIdExpected`, `AppIdAccepted` (types.py 722-724) | refuted (F29); holds if the AppID is given as id of the Relying Party; proved of the repaired function |
| C81 | `World`, a strategy for all that is outside; `probability`, the fraction of all draws; `StaleLogin`, `Unserved` | C65 and C64 for each history; counting the draws that repeat what was fixed before (`card_hit`) |
| C82 | `HasInitialCounter`, `StoresInitial`, `CounterAbove` over the reply function | a run with a registration at 5 and a login at 1 (F30) refutes it; proved of every registrar that stores the counter, and of the application repaired in one line (`Model/Initial`); a simulation shows that it serves growing counters as before |
| C83 | `SuitsType`, `Permits`, `SignedAs` (RFC 8152 and the docstring of `CredentialPublicKey`) | a key with `key_ops` for signing only verifies (F31); proved up to `key_ops` for keys of registrations, and exactly with a filter in front of any registrar (`Model/KeyUse`) |
| C84 | `Guarantees`, `Strong` (the statements of C20, C47, C49, C50, C51, C65, C66, C67, C71, C72, C82 for any way of answering) | proved for every list of checks in front of the application (`Model/Guards`), and for the list of all repairs; one after another |
| C85 | `Linearizable`, `SafeTogether` (the statements of C84 by overlapping requests and their answers) | proved for the application behind a lock and in transactions (`Model/Locked`), requests overlapping statement by statement and cut off at any moment; refuted without the lock |
| C86 | `Separate`, `Accepted`, `Signed.message` | refuted (F33); proved but for FIDO U2F statements about keys with coordinates of different lengths, and for a variant that checks the lengths (`Model/RepairedU2F`) |
| C87 | `StricterLogin`, `StricterRegistration` (`OriginsWithin`, `AsksFor`, `AllowedWithin`) | proved |
| C88 | `SameSigned`, `SameButNames`, `IgnoresUnsigned`, `IgnoresNames` | proved; for registrars that do not look at the unsigned parts, where the effect is concerned |
| C89 | `GoodRegistration`, `GoodLogin`, `SameOrigin`, `AcceptedWhole` | proved of `Model/Whole`, the handlers with all repairs of the package, and related to the code |
| C90 | `PathIsChain`, `ChainOf`, `Carries` | refuted (F35), proved for chains of one certificate, and in general of the repaired variant |
| C91 | `AndroidStrict`, `SignedWith`, `SignOnly`, `AlgorithmUsed`, `PurposeIsSigning` | refuted (F36, F37), proved for EC keys and without other purposes, exact for the repaired variant |
| C92 | `StandardClientData`, `Unmarked`, `ReadsClientData`, `JsonRefusesMark` | refuted (F38), proved without byte order mark, exact for the repaired variant |
| C93 | `HasRegistered`, `Known`, `NothingToUse`, `ToldSo`, `Restricted` over the reply function | refuted (F39) for every instance of the application; what the options allow is exact; proved with a check in front (`Model/SomeCredential`), whatever other checks there are |
| C94 | `TakesCreation`, `TakesRequest` (the members of the argument, one by one), `HostOf`, `Drawn` | from C57; the handle in the options was drawn in some request |
| C95 | `At`, `asked`, `recent`, `NoneStale` over the kept challenges, `ClockForward`, `NotDrawnAgain` | refuted (F40) for every instance and any number of stale challenges; proved with deletion (`Model/Swept`), by a simulation of the application, which goes on answering as before |
| C96 | `Contract`, `StrictContract` over `ClientSays` and the relations of Spec/Backend, for any `Package`; `Upheld`, `UpheldStrictly` over replies | by an invariant of the tables (`Ledger`) over any package with the contract; instances of both contracts, serving of honest users |
| C97 | `Versions`, any function from what was served to the installed package; `Serving`, what a package must accept | the invariant of C96 does not need one package; honest registrations and logins for any package with `Serving`, of which there are two instances |
| C98 | `AboveOrZero`, the rule of WebAuthn; `HonestLogin`, `NeverCounted`, `ServesCounterless` over replies; the contract of C96 for any rule (`ContractBy`) | refuted (F5) for the application; proved with the changed line (`Model/Counterless`), which is the package as it is in front of a registrar that tells of no zero; single use of challenges takes the place of rising counters in C67 |
| C99 | `Part`, `Keeps`: the contract of C96 part by part; `Suffices`: packages with these parts give `Upheld` | one wrong package for each part: the code with a change, or `judging`, which accepts whatever the other parts allow; a history of Ada and Bob breaks a guarantee |
| C100 | `Check.Claim`: the part of `Strong` of each check of C84; `ChecksSuffice` | for each check a history of Ada, Bob and Eve in which all the other checks admit what breaks its part |
| C101 | `Stands`, `RequestAt`, `IssuesAt`, `RegistersAt`, `KeyLoginAt`, `Settled`, `OneEachRestored` over steps that are requests or restorations | what stands determines all answers; one login per approval refuted when copies are put back at once (F41), proved when nobody logs in for a minute, and, for all ways to put copies back, with a check of the numbers of challenges (`markedReply`) |
| C102 | `Reports` (what clients may report on a connection), `RightlyBound`, `ChoosesRight` over both ceremonies | proved for callers that read the client data first; no argument found from the connection alone serves all clients (F18) |
| C103 | `renamed` (requests), `renamedTables`, `RenamedReply`, `NamesOnly` for every injective map of names | proved |
| C104 | `Agreeing` (two clocks), `tooOld`, `StaysOld` over `timeOf`, `atTime` | only ages matter: proved; what is too old stays so: refuted when the clock is set back (F42), proved while it goes forward, and by any clock with a mark (`expiredReply`) |
| C105 | `Meant` (which of the four is meant), `Misdirected` | proved, of a route that calls the four functions (`Model/OneRoute`) |
| C106 | `CountingUp`, `CopiesNoticed`, `OneCopy` (histories in which uses of copies are marked and numbered) | proved, also behind checks and with exchanged packages; with a case that shows that copies used elsewhere may escape |
| C107 | `RevocationHolds`, `Gone`, `FreshThough`, `IncreasingThough`, `OneEachRevoked` (histories of requests and revocations) | partial: as if the responses had never been sent, and no login without a registration that was not revoked since, proved; that it may be registered again, and then the same response used again, shown; a list of revoked ids repairs both |
| C108 | `OwnCredentials`, `SomeCredentials`, `GivenFresh` (histories of requests and deletions) | partial: proved where the rows that refer to a user are deleted with it; where they are not, that the next new user inherits the credentials shown |
| C109 | `Listening`, `Lasts`, `OneProcess`, `Undisturbed` (histories of requests, starts, stops and kills) | partial: proved, but that a second start is harmless is false of the code, shown, and proved of a process that leaves the file alone |
| C110 | `attempts`, `leavingOut`, `NoTrace`, `RegistrationAnswered`, and `RegisteredBy`, `IssuedBy` of C73 | partial: proved, but that an unanswered request leaves no trace is false of the code, shown, and proved where the request has only read |
| C111 | `Repeatable`, and `RegistersBy` of C66 | partial: false of the code, shown of every registration that succeeds, and proved of a registrar that looks first |
| C112 | `Independent`, `Exchangeable` | proved; each of the four conditions is shown to be needed |
| C113 | `Obtained`, `Logged`, `Traceless`, `NewChallenges` | partial: false of the code when a challenge is drawn again (F47); proved otherwise, and in full with both rows in one transaction |
| C114 | `LastLogin`, `opened`, `Faithful`, and `Issues`, `Registers`, `Authenticates` of C49 | proved |
| C115 | `AccountOpened`, `Presents`, `RegistrationGranted`, `LoginGranted`, and `Attests` and `LoginCall` of C64, `LastLogin` of C114 | proved |
| C116 | `WasIssued`, `NextNumber`, `Enrolments`, `KeyOnFile`, `OnFile`, `Unheard`, `Answer`, and `Presents` of C115 | proved |
| C117 | `SameFacts`, `RegisteredBefore` of C116, `opened` and `LastLogin` of C114 | proved |
| C118 | `LeavesOut`, `SameFacts` of C117 | proved |

## 4. Findings (behaviour the model makes visible)

* F1 `handle_credential_attestation` passes the credential public key where
  `attest` expects the attestation object (backends.py 203-206), so FIDO U2F and
  Android key registrations always fail; only `none` can succeed.
* F2 `_build_base_cose_dictionary` (converters.py 173-174) tests `key_ops`
  where it should test `base_IV`: a key with `base_IV` and no `key_ops` loses
  its `base_IV`.
* F3 `parse_origin` compares the raw authority, so `https://e.com:443` and
  `https://e.com` are different origins, and hosts are case sensitive.
* F4 Registration does not compare the credential's raw id with the attested
  credential id.
* F5 The counter rule refuses a counter that stays 0 (authenticators without
  a counter) as soon as 0 has been stored, so their holders log in to the example application
  once (`C98_counterless_refuted`, `C98_locked_out_app`).  `if registered_sign_count:` in backends.py 432
  repairs that; it must come with single use of challenges (`C98_guarantees`, `C98_alone_refuted`).
* F6 base64 decoding skips characters outside the alphabet, so many challenge
  strings denote the same challenge.
* F7 The token binding id is not type checked.
* F8 The example application neither consumes challenges nor ties them to the
  user.
* F9 `cbor2.loads` ignores trailing bytes, so attestation objects and COSE
  keys with trailing bytes are accepted.
* F10 The read and the write of the registrar are separate calls: two
  concurrent handlers can both accept the same assertion, and the stored
  counter can go down.
* F11 `jsonify` passes `NaN` and infinities through, which are not JSON; an
  `Enum` member whose value is `None` yields a `null` member.
* F12 `PublicKeyCredentialParameters` with a `COSEAlgorithmIdentifier.Name`
  serialises to the name of the algorithm, not to its number.
* F13 An option attribute annotated `Sequence` that holds another sequence type
  (`deque`) makes `jsonify` raise.
* F14 Setters, constructors and `build` share the objects passed to them; a change
  to a list passed to a builder changes options built earlier (C55 states what
  is isolated; `C55_exception_needed` shows the exception).
* F15 A `ValueError` of `urlparse` in `parse_origin` (such as `http://[`) becomes
  `InternalError`, not `OriginError`.
* F16 The example application lets anyone add a credential to an existing user
  name and then log in under it (`C66_owner_only_refuted`), and commits a new user before the challenge, so a failing challenge row leaves the
  user row behind.
* F17 Bytes after the DER key description are ignored; the schema requires
  `verifiedBootHash`, which descriptions of version 1 and 2 do not have, and lacks the
  tags of newer versions, so these descriptions are refused.
* F18 A caller that gives no token binding refuses clients that report one, even
  with the status `supported`, and no other argument serves all clients on a connection without token
  binding (`C102_connection_alone`); a caller has to read the client data first (`C102_chosen`).
* F19 An Android key certificate that does not load is reported with the
  `ValueError` of `cryptography`, not with `AttestationError` as in the U2F format
  (attesters.py 154-155 has no handler; 84-89 has one).
* F20 Of two overlapping registration requests for the same new user name one is answered
  with status 500 (`IntegrityError`; app.py has no handler for it).
* F21 Overlapping logins of one credential: the same assertion is accepted twice if both
  read the stored counter before either writes it, and the write that comes last can set
  the counter back, so that an old assertion is accepted again later.  One approval by the
  user is then good for two logins (`C67_overlapping_refuted`).  An `UPDATE` with the
  condition that the counter grows is enough (`C63_repaired_counters`, `C67_repaired`).
* F22 With `python -O`, `build` accepts `None` for the user or the challenge, and the options
  sent to the client lack the member (`C68_build_incomplete`); `validate` accepts a key object
  whose key type does not fit its class (`C68_validate`; no parsed key is such).  No check of a
  ceremony is lost.
* F23 Nothing compares the algorithm of a registered key with the algorithms that were asked
  for; `handle_credential_attestation` has no argument for them (`C71_requested_refuted`).
* F24 Keys whose curve is not the one of the algorithm (ES384 on P-256), and keys with `kid`,
  `key_ops` or `base_IV`, are registered, which WebAuthn forbids (`C72_profile_refuted`).
* F25 `jsonify` refuses `Origin` objects with `UnimplementedError`, although the README says that
  it converts all data types: a `NamedTuple` has no `__dict__`, and its type is not `tuple`
  (`C75_refuted`; `CredentialData` of registrars.py is such a class, too).
* F26 Anybody can find out which names have accounts: `authentication_request` answers "User not
  registered", and both response routes answer "Invalid username" (`C77_hides_refuted`,
  `C77_response_tells`).
* F27 The flows that the buttons of the page start share global variables.  If Register is clicked
  with another user name while a response is under way, the page tells that the other user is
  registered, though only the first is; the same of Authenticate (`C78_disturbed`,
  `C78_truthful_refuted`).  A credential can also be submitted with the challenge and the name of
  another flow (`C78_coherent_refuted`), which the application refuses (`C78_mixed_refused`).
* F28 `parse_extensions` does not check what types.py documents of the values: a location may lack
  its position or have a negative accuracy, `uvm` entries may have any length (`C79_refuted`); a
  login with an empty location is accepted by a Relying Party that expects `LOC`
  (`C79_location_refuted`).
* F29 The rule that types.py documents for `appid` is not implemented: a login that used the AppID
  is refused with `RPIDHashError` (`C80_appid_refused`), and one that claims to have used it is
  accepted with the hash of the RP id (`C80_refuted`).  In the standard the output comes from the
  client, not from the authenticator; the library reads outputs from authenticator data only.
* F30 The example stores `None` as counter of a new credential (app.py 92), not the counter of the
  registration, so a copy of the authenticator with a smaller counter logs in once (C82).
* F31 `verify` looks neither at `kty` nor at `key_ops`, nor at the `alg` of an OKP key
  (verifiers.py 22-93), which the docstring of `CredentialPublicKey` demands (C83).
* F32 Credential ids of any length are registered, though server-configuration.rst 42-43 says
  that they have at least 16 bytes (an example beside C84; WebAuthn leaves it to authenticators).
* F33 `attest_fido_u2f` does not check that the coordinates of the attested key have 32 bytes
  (WebAuthn 8.6): a statement about a key on P-256 whose id has the byte 4 at the right place is
  also accepted for a key on P-384 with a shorter id (`C86_separate_refuted`; attesters.py 105-116).
* F34 With a set of expected origins of which one is malformed (`OriginError`) and another has a bad
  port (`ValueError`, so `InternalError`), which of them is raised depends on the order in which the
  set is read (an example beside C87; backends.py 64-71).
* F35 The trust path of an Android key statement is its first certificate only: the others are neither
  read nor passed on, so the Relying Party cannot follow the chain to a root it trusts, and bytes that
  are no certificates are taken in their place (C90; attesters.py 154-155, 240; WebAuthn 8.4 "attestation
  trust path x5c").
* F36 With an Edwards key in the certificate the `alg` of an Android key statement is not looked at
  (C91; attesters.py 174-175; WebAuthn 8.4 "with the algorithm specified in alg").
* F37 An Android key may have purposes beside signing (C91; attesters.py 234-238, which has a TODO about
  it; WebAuthn 8.4 "equal to KM_PURPOSE_SIGN").
* F38 Client data with a leading byte order mark are refused, though the standard has it stripped
  (C92; parsers.py 720-723, where `'utf-8'` should be `'utf-8-sig'`; WebAuthn 7.1 and 7.2 "UTF-8 decode").
* F39 The reply "User without credential" is never sent: `Query.all` returns a list, which is compared
  with `None` (app.py 243-244).  A user who has only asked to register gets options to log in with an
  empty list of credentials (`C93_refuted`); a login still needs a credential (`C93_login_partial`).
* F40 Challenges are never deleted (app.py 57-61): anybody makes the table grow by one row per request,
  without an account and although a challenge is of no use after a minute (`C95_refuted`).
* F41 A copy of the database less than a minute old that is put back makes responses good that were used
  before: the counters and the challenges in it are those from before the login (`C101_one_login_refuted`).
  Waiting until the challenges in the copy are too old mends it (`C101_one_login_partial`), and so does
  refusing the numbers of the challenges in the copy (`C101_marked_one_login`).
* F42 The age of a challenge is the difference of two readings of `time.time()` (app.py 67-68, 213-215,
  297-299), which may be set back.  Then a challenge that was refused as too old is accepted
  (`C104_set_back_refuted`).  Writing the expiry down mends it (`C104_expired`).
* F43 Registration is open to anybody for any name (C66), so a credential that the operator revokes by
  deleting its row may be registered again by whoever stole it, under the same name
  (`C107_gone_refuted`); its counter then begins anew, and a response that was used is good again while
  its challenge is not too old (`C107_one_login_refuted`).  A list of revoked ids mends both
  (`C107_barred_gone`, `C107_barred_one_login`).
* F44 The keys of the tables are plain integers (app.py 37, 58), which SQLite uses again once the greatest
  is deleted, and does not check foreign keys unless told to.  If an operator deletes the row of a user and
  not those that refer to it, the next new user has the number and the credentials of the old one, who may
  log in as the new one (`C108_refuted`).  Deleting all of the rows mends it
  (`C108_account_registered`), as does AUTOINCREMENT (`C108_repaired`).
* F45 The main part removes the file with the tables whenever it ends (app.py 329-331), also if `app.run`
  could not bind the port.  Whoever starts the application a second time deletes all the accounts and breaks
  the process that serves until it is started again (`C109_refuted`, `C109_disturbed`).  Removing the file only after
  having served mends it (`C109_careful`).
* F46 An endpoint commits before it answers (app.py 97, 163, 172, 254), and nothing is idempotent: a registration whose
  reply is lost is stored, is good for logins (`C110_answered_refuted`), and cannot be sent again with success
  (`C110_registered_once`).  A request for a challenge whose reply is lost leaves its user and challenge behind
  (`C110_refuted`).  A registrar that looks first whether the credential is stored mends the former (`C111_repaired`,
  `C111_after_kill`).
* F47 `registration_request` commits the user (app.py 163) before the challenge (app.py 172).  If the challenge cannot be
  stored, e.g. because it was drawn before, the request is refused and the user stays (`C113_refuted`).  One commit for both
  mends it (`C113_repaired`).

## 5. Trusted base

* The Lean 4.33 kernel.  No axioms beyond `propext`, `Classical.choice`,
  `Quot.sound` (no own axioms, no `sorry`, no `native_decide`, no `bv_decide`); section 7
  lists them per theorem.
* The correspondence between the Python and JavaScript text and the Lean
  definitions, which is by reading.
* The specifications in `Spec/`, which say what the theorems mean.
* Modelled: every function of backends.py, attesters.py, parsers.py,
  validators.py, verifiers.py, converters.py, utils.py, builders.py, registrars.py (the
  base class and its results), asn1.py, the data classes and enumerations of
  types.py, constants.py, the tables, registrar, the four endpoints and the main part of
  examples/flask/app.py, and the scripts of templates/app.html other than what
  follows.
* Not modelled: text of error messages; logging; memory exhaustion and recursion
  limits; `python -O` outside of `Model/Optimised` (assertions are modelled as active elsewhere); monkey patching; subclasses of
  library types made by callers; argument values outside the documented Python
  types unless said otherwise at the definition; the internals of `cbor2`,
  `cryptography`, `hashlib`, `pyasn1`, `json`, SQLAlchemy, SQLite and Flask; in the
  example, the index page, sessions, and rate limits (`Model/FlaskThreads` takes a statement with its
  commit as one step and says which accesses it counts as statements; `Model/FlaskFaults` lets them
  fail, and assumes that an error of the database is an `Exception`); in the page, `fetch` and its failures other than as
  rejected promises.  The packaging files are not
  subjects; of `README.md` only the claim about `jsonify` (C75).
* The code was read, not run, with one slip: a helper script that was to print docstrings was started
  inside the package directory, so that the interpreter took `types.py` of the package for the module
  of that name of the standard library.  The import failed at its first line, no file changed, and nothing here
  rests on it.
* `Tests/` restates the test suite of the repository (tests/) for the model: every case of
  every test, but for one whose argument is not of the annotated type (and fewer random inputs), is an `example` that the
  kernel evaluates.  It checks the transcription against expectations which the authors of the
  code wrote, and is no part of any proof.  Keys, signatures and certificates, which the tests of
  the repository make at random, are made there by a toy scheme (`Tests/Basic`).

## 6. Wrong programs

`seeded/LOG.jsonl` has one line per wrong program: a copy of the project with one
definition of the model edited so that the claim fails.  `failed` are the theorems of the
claim that no longer hold up, either because their own proof fails or because
a lemma they use does (`failed_lemmas` are the theorems whose proofs fail
directly, `failed_other` theorems of other claims).  When every theorem of the
claim was still proved, or the theorem failed only for an incidental reason, the statement was
tightened; `tightened` names the theorems that were added or strengthened.

## 7. Axioms per theorem

For the theorems of `MANIFEST.json` (names without the namespace), as `#print axioms` gives them.

No axioms:

`C43_defaults`.

`propext`:

`C21_fido_u2f_wrong_signature`, `C23_unimplemented_refused`, `C26_short`,
`C46_other_class`, `C68_attest`, `C68_verify`, `C68_cose_key`, `C68_build`,
`C86_repaired_others`, `C90_rest_ignored`, `C90_repaired_others`.

`Quot.sound`, `propext`:

`C21_fido_u2f_exact`, `C35_repaired_no_trailing_data`, `C43_setter`, `C43_creation`,
`C43_request`, `C44_validate_exact`, `C44_validate_error`, `C44_validate_raises`,
`C45_conversion_exact`, `C46_verify_exact`, `C46_bad_ecdsa`, `C46_bad_eddsa`,
`C61_public_key`, `C61_signature`, `C61_key_written`, `C68_validate`,
`C68_validate_raises`, `C68_setters`, `C83_algorithm`, `C83_use_partial`,
`C86_repaired_u2f`, `C86_repaired_same`.

`Classical.choice`, `Quot.sound`, `propext`:

`C01_signature_required`, `C01_no_signature_no_login`, `C02_type_registration`,
`C02_type_authentication`, `C02_no_cross_ceremony`, `C03_challenge_registration`,
`C03_challenge_authentication`, `C03_challenge_unique`, `C04_origin_registration`,
`C04_origin_authentication`, `C04_empty_expectation`, `C04_malformed_expectation`,
`C05_rp_hash_registration`, `C05_rp_hash_authentication`,
`C06_user_presence_registration`, `C06_user_presence_authentication`,
`C07_user_verification_registration`, `C07_user_verification_authentication`,
`C07_user_verification_ignored`, `C07_user_verification_ignored_registration`,
`C08_extensions_registration`, `C08_extensions_authentication`, `C08_map`,
`C08_map_registration`, `C08_map_authentication`, `C09_token_binding_registration`,
`C09_token_binding_authentication`, `C10_allow_list`, `C10_allow_list_success`,
`C11_user_bound`, `C12_rp_bound`, `C13_counter_increases`, `C13_counter_ignored`,
`C14_registration_calls`, `C14_authentication_calls`, `C14_failed_registration`,
`C14_failed_authentication`, `C15_registration_reported`,
`C15_authentication_reported`, `C15_registration_errors`, `C15_authentication_errors`,
`C15_registration_any`, `C15_authentication_any`, `C16_registration_refused`,
`C16_authentication_refused`, `C16_read_raises`, `C16_read_none`,
`C16_refusing_registrar`, `C17_authentication_accepts_exactly`,
`C18_registration_accepts_exactly_partial`, `C18_repaired_accepts_exactly`,
`C19_none_accepted_partial`, `C19_u2f_refused`, `C19_supported_formats_refuted`,
`C19_repaired_supported_formats`, `C19_repaired_conservative`,
`C20_registrar_can_compare_partial`, `C20_checking_registrar`,
`C20_raw_id_attested_refuted`, `C20_repaired_raw_id_attested`, `C22_android_key_exact`,
`C22_android_same_key`, `C23_unimplemented_not_registered`, `C24_layout_exact`,
`C24_layout_offsets`, `C25_auth_data_round_trip`, `C26_padded`, `C26_truncated`,
`C27_stored_key`, `C27_stored_keys_survive_partial`, `C27_stored_keys_survive_refuted`,
`C27_repaired_stored_keys_survive`, `C28_cose_key_exact`, `C28_cose_key_bytes`,
`C28_cose_key_fields`, `C29_attested_key_consistent`, `C30_credential_exact`,
`C30_response_kind`, `C31_client_data_exact`, `C31_token_binding`,
`C32_extensions_exact`, `C33_statement_exact`, `C33_statement_variant`,
`C34_attestation_object_exact`, `C35_trailing_data_ignored`,
`C35_trailing_data_ignored_key`, `C35_no_trailing_data_refuted`,
`C36_accepted_origins`, `C36_serialised_origins`, `C36_no_path`,
`C37_equivalent_origins_refuted`, `C37_equivalent_origins_partial`, `C37_compared`,
`C37_never_confused`, `C37_accepted_listed_registration`,
`C37_accepted_listed_authentication`, `C37_repaired_equivalent_origins`,
`C37_repaired_accepted_origins`, `C37_repaired_same_origin`,
`C38_base64url_round_trip`, `C38_base64url_encoding`, `C39_case_round_trip`,
`C39_names_exact`, `C39_extension_names`, `C40_shows`, `C40_supported`, `C40_errors`,
`C40_json_partial`, `C40_refuted`, `C40_repaired_json`, `C40_repaired_shows`,
`C40_repaired_errors`, `C40_repaired_conservative`, `C41_creation`, `C41_request`,
`C41_creation_listed`, `C41_request_listed`, `C41_challenge`, `C41_request_challenge`,
`C42_unchanged`, `C42_derived`, `C42_histories`, `C42_build_creation`,
`C42_build_request`, `C42_creation_attributes`, `C42_request_attributes`,
`C45_conversion_injective`, `C45_conversion_error`, `C47_flask_registrar`,
`C47_flask_counters`, `C47_counters_increase`, `C47_no_replay`,
`C48_compare_and_set_partial`, `C48_distinct_counters_partial`, `C48_replay_refuted`,
`C48_locked_distinct`, `C48_locked_never_twice`, `C48_locked_increasing`,
`C48_locked_serial`, `C48_locked_progress`, `C48_locked_serves`, `C49_login`,
`C49_registration_scope`, `C49_authentication_scope`, `C49_registered_once`,
`C50_fresh_challenge`, `C51_no_replay_partial`, `C51_single_use_refuted`,
`C51_user_bound_refuted`, `C51_repaired_single_use`, `C51_repaired_user_bound`,
`C51_repaired_serves`, `C52_honest_registration`, `C52_honest_authentication`,
`C52_honest_ceremonies`, `C53_registration_uninterrupted`,
`C53_authentication_uninterrupted`, `C53_registration_crash`,
`C53_authentication_crash`, `C54_authentication_error`,
`C54_authentication_error_exact`, `C54_not_allowed`, `C54_registration_error`,
`C54_bad_expected_origin`, `C55_derived_isolated`, `C55_source_isolated`,
`C55_exception_needed`, `C55_derived_forever`, `C55_derived_builds_creation`,
`C55_derived_builds_request`, `C55_source_forever`, `C56_registration`,
`C56_authentication`, `C57_registration_answered`, `C57_authentication_answered`,
`C57_creation_argument`, `C57_request_argument`, `C57_handles`,
`C57_registration_form`, `C57_authentication_form`, `C57_registration`,
`C57_authentication`, `C58_documented_decoded`, `C58_android_exact`,
`C58_android_refused`, `C58_unambiguous`, `C59_registration_not_stored`,
`C59_nobody_known`, `C59_authentication_not_stored`, `C60_registration`,
`C60_authentication`, `C60_registration_one`, `C60_authentication_one`, `C61_origin`,
`C61_client_data`, `C61_authenticator_data`, `C61_attestation_object`,
`C61_credential`, `C61_cose_key`, `C61_cose_key_bytes`, `C61_extensions`,
`C61_statement`, `C62_attest_error`, `C62_attest_total`, `C62_repaired_registration`,
`C63_repaired_answered`, `C63_repaired_authentication_statements`,
`C63_repaired_login`, `C63_repaired_fresh_challenge`,
`C63_repaired_registration_scope`, `C63_repaired_authentication_scope`,
`C63_repaired_registered_once`, `C63_repaired_issued_once`, `C63_repaired_counters`,
`C63_repaired_distinct_counters`, `C63_repaired_no_replay`,
`C63_repaired_registration`, `C63_repaired_authentication`,
`C63_repaired_registration_request`, `C63_sequential`, `C63_answered`,
`C63_uninterrupted`, `C63_tables`, `C63_registered_once`, `C63_issued_once`,
`C63_login`, `C63_fresh_challenge`, `C63_registration_scope`,
`C63_authentication_scope`, `C63_registration`, `C63_authentication`,
`C63_registration_request_known`, `C63_authentication_request`,
`C63_registration_request_new_partial`, `C63_registration_statements`,
`C63_authentication_statements`, `C63_counters_partial`, `C63_no_replay_partial`,
`C63_replay_refuted`, `C63_counters_refuted`, `C63_registration_request_refuted`,
`C64_outcome`, `C64_only`, `C64_consistent`, `C64_consistent_history`, `C64_reply`,
`C64_reply_only`, `C65_repaired`, `C65_login`, `C65_phishing`, `C65_overlapping`,
`C65_overlapping_phishing`, `C66_owner_only_partial`, `C66_repaired`,
`C66_repaired_registration`, `C66_repaired_authentication`, `C66_owner_only_refuted`,
`C67_repaired`, `C67_one_login_partial`, `C67_overlapping_refuted`, `C68_registration`,
`C68_authentication`, `C68_parsers`, `C68_build_incomplete`, `C68_application`,
`C69_approved`, `C69_phishing`, `C69_one_each`, `C69_count`, `C70_request`,
`C70_login`, `C70_overlapping`, `C71_registrar`, `C71_registrar_stores_nothing`,
`C71_supported_partial`, `C71_repaired`, `C71_repaired_serves`,
`C71_requested_refuted`, `C72_family_partial`, `C72_registrar`,
`C72_registrar_stores_nothing`, `C72_repaired`, `C72_repaired_serves`,
`C72_profile_refuted`, `C73_faults`, `C73_repaired_faults`, `C73_tables`,
`C73_answered`, `C73_login`, `C73_fresh_challenge`, `C73_registration_scope`,
`C73_authentication_scope`, `C73_registered_once`, `C73_issued_once`, `C73_approved`,
`C73_repaired_one_each`, `C73_registration`, `C73_authentication`, `C73_lockout`,
`C73_registration_request_known`, `C73_repaired_registration_request`, `C74_atob`,
`C74_creation_options`, `C74_request_options`, `C75_credential`,
`C75_credential_parsed`, `C75_credential_round_trip`, `C75_credential_injective`,
`C75_client_data`, `C75_key`, `C75_authenticator_data`, `C75_attestation_object`,
`C75_all_partial`, `C75_refuted`, `C75_repaired`, `C75_repaired_same`,
`C76_others_leave`, `C76_same_reply`, `C76_alike`, `C76_history`, `C76_taken`,
`C77_repaired`, `C77_repaired_credentials`, `C77_repaired_logins`,
`C77_repaired_registrations`, `C77_repaired_requests`, `C77_repaired_history`,
`C77_login_tells`, `C77_hides_refuted`, `C77_response_tells`,
`C77_registration_hides_partial`, `C78_truthful_partial`, `C78_coherent_partial`,
`C78_repaired_truthful`, `C78_repaired_coherent`, `C78_some_success`,
`C78_conclusion_partial`, `C78_repaired_conclusion`, `C78_one_at_a_time`,
`C78_registration`, `C78_authentication`, `C78_mixed_refused`, `C78_disturbed`,
`C78_truthful_refuted`, `C78_coherent_refuted`, `C78_clicked_told`, `C78_clicked_form`,
`C78_texts`, `C79_types_partial`, `C79_repaired_exact`, `C79_repaired`, `C79_refuted`,
`C79_location_refuted`, `C80_appid_refused`, `C80_appid_given_partial`,
`C80_repaired_expected`, `C80_repaired_accepted`, `C80_repaired_conservative`,
`C80_refuted`, `C81_login`, `C81_served`, `C82_login_above`, `C82_after_partial`,
`C82_repaired_registrar`, `C82_repaired`, `C82_refuted`, `C82_repaired_serves`,
`C83_registered_partial`, `C83_repaired`, `C83_repaired_exact`, `C83_refuted`,
`C84_guarantees`, `C84_single_use`, `C84_user_bound`, `C84_owner_only`,
`C84_attested_id`, `C84_good_key`, `C84_long_id`, `C84_counter_above`, `C84_strong`,
`C84_registration`, `C84_login`, `C84_requests`, `C84_no_guards`, `C85_transfer`,
`C85_linearizable`, `C85_safe`, `C85_registration`, `C85_login`, `C85_answered`,
`C85_lock_needed`, `C86_separate_partial`, `C86_repaired_raises`,
`C86_repaired_separate`, `C86_separate_refuted`, `C87_login_looser`,
`C87_registration_looser`, `C87_login_origins`, `C87_registration_origins`,
`C87_login_extensions`, `C87_registration_extensions`, `C87_login_verification`,
`C87_registration_verification`, `C87_registration_same`, `C87_login_same`,
`C88_login_recorded`, `C88_login_effect`, `C88_login_exact`, `C88_login_names`,
`C88_registration_names`, `C88_app_effect`, `C88_app_names`, `C89_registration_exact`,
`C89_login_exact`, `C89_registration_kept`, `C89_registration_only`, `C89_login_kept`,
`C89_login_only`, `C89_registered_usable`, `C89_attested_stored`, `C89_separate`,
`C89_registration_refused`, `C89_login_refused`, `C90_trust_path_partial`,
`C90_fido_u2f`, `C90_repaired_trust_path`, `C90_repaired_extends`,
`C90_trust_path_refuted`, `C91_repaired_exact`, `C91_android_partial`,
`C91_repaired_algorithm`, `C91_repaired_purpose`, `C91_repaired_bytes`,
`C91_algorithm_refuted`, `C91_purpose_refuted`, `C92_client_data_partial`,
`C92_marked_refused`, `C92_registration_refused`, `C92_login_refused`,
`C92_repaired_exact`, `C92_repaired_mark`, `C92_repaired_kept`,
`C92_client_data_refuted`, `C93_allowed`, `C93_login_partial`, `C93_options`,
`C93_refuted`, `C93_repaired`, `C93_repaired_restricted`, `C93_repaired_told`,
`C93_repaired_traceless`, `C93_repaired_serves`, `C94_creation`, `C94_request`,
`C95_growth_partial`, `C95_refuted`, `C95_repaired`, `C95_repaired_few`,
`C95_repaired_replies`, `C95_repaired_success`, `C95_repaired_rows`, `C96_code`,
`C96_repaired`, `C96_same`, `C96_guarantees`, `C96_strong`, `C96_fixed`,
`C96_registration`, `C96_login`, `C96_requests`, `C97_guarantees`, `C97_strong`,
`C97_code_serves`, `C97_repaired_serves`, `C97_registration`, `C97_login`,
`C97_requests`, `C97_registers`, `C98_same`, `C98_exact`, `C98_contract`,
`C98_strict_contract`, `C98_serves`, `C98_locked_out`, `C98_locked_out_app`,
`C98_login`, `C98_counterless`, `C98_guarantees`, `C98_strong`, `C98_counters`,
`C98_counterless_refuted`, `C98_alone_refuted`, `C99_whole`, `C99_suffices`,
`C99_counter`, `C99_known`, `C99_authData`, `C99_updated`, `C99_notUpdated`,
`C99_stored`, `C99_notStored`, `C99_object`, `C99_attestation`, `C99_createData`,
`C99_createType`, `C99_createChallenge`, `C99_createOrigin`, `C99_assertion`,
`C99_getData`, `C99_getType`, `C99_getChallenge`, `C99_getOrigin`, `C99_user`,
`C99_signed`, `C99_rp`, `C99_rpHash`, `C99_present`, `C99_needed`, `C99_exactly`,
`C100_registration`, `C100_login`, `C100_requests`, `C100_each`, `C100_enough`,
`C100_each_exactly`, `C100_exactly`, `C101_as_if`, `C101_registered`, `C101_fresh`,
`C101_once`, `C101_increasing`, `C101_approved`, `C101_one_login_partial`,
`C101_one_login_refuted`, `C101_marked_one_login`, `C101_marked_as_if`,
`C101_marked_refused`, `C102_chosen`, `C102_one_report_registration`,
`C102_one_report_authentication`, `C102_instance_unknown`, `C102_instance_offered`,
`C102_instance_authentication`, `C102_instance_refused`, `C102_connection_alone`,
`C102_application_registration`, `C102_application_authentication`, `C103_names_only`,
`C103_handles`, `C103_accepted`, `C103_drawn`, `C103_instance_login`,
`C103_instance_handles`, `C103_injective_needed`, `C104_ages_only`, `C104_ahead`,
`C104_earlier`, `C104_stays_old_partial`, `C104_instance_slow`,
`C104_instance_agreeing`, `C104_instance_earlier`, `C104_instance_late`,
`C104_set_back_refuted`, `C104_instance_expired`, `C104_expired`,
`C104_expired_forward`, `C105_one_route`, `C105_total`, `C105_onto`,
`C105_misdirected`, `C105_no_confusion`, `C105_instance_login`,
`C105_instance_misdirected`, `C105_instance_no_confusion`, `C106_noticed`,
`C106_application`, `C106_guarded`, `C106_package`, `C106_one_copy`, `C106_instance`,
`C106_instance_one_copy`, `C106_elsewhere`, `C106_reported`, `C106_reported_only`,
`C106_instance_reported`, `C107_as_if`, `C107_others`, `C107_registered`,
`C107_gone_partial`, `C107_fresh`, `C107_increasing`, `C107_one_login_partial`,
`C107_barred_refused`, `C107_barred_others`, `C107_barred_gone`,
`C107_barred_registers`, `C107_barred_registered`, `C107_barred_fresh`,
`C107_barred_one_login`, `C107_gone_refuted`, `C107_one_login_refuted`,
`C107_instance`, `C107_instance_barred`, `C108_same`, `C108_account_registered`,
`C108_account_gone`, `C108_partial`, `C108_account_fresh`, `C108_user_fresh`,
`C108_refuted`, `C108_instance_partial`, `C108_instance`, `C108_instance_served`,
`C108_instance_name`, `C108_instance_repaired`, `C108_account_name`, `C108_user_name`,
`C108_account_served`, `C108_repaired`, `C108_repaired_same`, `C109_as_if`,
`C109_registered`, `C109_fresh`, `C109_one_login`, `C109_killed`, `C109_stopped`,
`C109_disturbed`, `C109_partial`, `C109_careful`, `C109_instance_killed`,
`C109_instance_stopped`, `C109_instance_disturbed`, `C109_instance_partial`,
`C109_instance_careful`, `C109_instance_as_if`, `C109_instance_registered`,
`C109_instance_before`, `C109_instance_after`, `C109_instance_one_login`,
`C109_refuted`, `C109_redrawn_refuted`, `C110_as_if`, `C110_received`, `C110_tables`,
`C110_login`, `C110_fresh`, `C110_registered_once`, `C110_repaired_one_each`,
`C110_goes_on`, `C110_partial`, `C110_refuted`, `C110_answered_refuted`, `C111_tables`,
`C111_others`, `C111_success`, `C111_repaired`, `C111_registered`, `C111_login`,
`C111_never`, `C111_refuted`, `C111_after_kill`, `C112_order`, `C112_alone`,
`C112_any_order`, `C112_credentials_needed`, `C112_response_needed`,
`C112_issued_needed`, `C112_names_needed`, `C113_repaired`, `C113_same_run`,
`C113_same`, `C113_partial`, `C113_replay`, `C113_refuted`, `C114_counters`,
`C114_users`, `C114_books`, `C114_determined`, `C115_registration`, `C115_login`,
`C116_reply`, `C116_only`, `C116_iff`, `C117_facts`, `C117_future`, `C117_stays`,
`C117_forgets`, `C118_logins`, `C118_others`, `C118_success`, `C118_forgets`.
