import Verif.Spec.Granted

/-!
# The reply to every request, by what happened before

As `Outcome`, but no rule mentions the tables.
-/

namespace WebAuthn.Flask

open WebAuthn WebAuthn.Spec

/-- The challenge `ch` with the number `n` was issued at the time `t`. -/
def WasIssued (app : App) (evs : List Event) (n : Nat) (ch : Bytes) (t : Int) : Prop :=
  ∃ name pre e, Occurs evs pre e ∧ Issues app pre e n ch t name

/-- The numbers that were issued are those from 1 up to `n`, without `n`. -/
def NextNumber (app : App) (evs : List Event) (n : Nat) : Prop :=
  1 ≤ n ∧ ∀ m, (∃ ch t, WasIssued app evs m ch t) ↔ 1 ≤ m ∧ m < n

/-- The credential was registered. -/
def WasRegistered (app : App) (evs : List Event) (id : Bytes) : Prop :=
  ∃ pre e name k, Occurs evs pre e ∧ Registers app pre e id name k

/-- The credential `a` was registered before the credential `b`. -/
def RegisteredBefore (app : App) (evs : List Event) (a b : Bytes) : Prop :=
  ∃ pre e name k, Occurs evs pre e ∧ Registers app pre e b name k ∧ WasRegistered app pre a

/-- The credentials that the user registered, in this order. -/
structure Enrolments (app : App) (evs : List Event) (name : String) (ids : List Bytes) : Prop where
  mem : ∀ id, id ∈ ids ↔ ∃ pre e k, Occurs evs pre e ∧ Registers app pre e id name k
  order : ids.Pairwise (RegisteredBefore app evs)
  once : ids.Nodup

/-- The credential was registered by `owner`, who has the handle `h`, and `key` is its encoded key. -/
def KeyOnFile (app : App) (evs : List Event) (id : Bytes) (owner : String) (h key : Bytes) : Prop :=
  ∃ pre e k, Occurs evs pre e ∧ Registers app pre e id owner k ∧ coseKey app.env k = .ok key ∧ AccountOpened evs owner h

/-- What the application knows of the credential: the key, the owner and the counter of the last login. -/
def OnFile (app : App) (evs : List Event) (id : Bytes) (cd : CredentialData) : Prop :=
  ∃ owner h key, KeyOnFile app evs id owner h key ∧
    (∃ d rest, app.env.cborLoad key = .ok (.dict d, rest) ∧ CoseKeyOf d cd.publicKey) ∧
    cd.user = entityOf (userOf owner h) ∧ cd.rp = none ∧
    ∀ m, cd.signatureCount = some m ↔ LastLogin app evs id m

/-- The form of a response is refused. -/
inductive Unheard (app : App) (Kind : Response → Prop) (evs : List Event) (f : Form) (now : Int) : Reply → Prop
  | interrupted (e : Exc) : Interrupted app f e → Unheard app Kind evs f now (.crash e)
  | unreadable : (∀ e, ¬ Interrupted app f e) → (∀ cid c name, ¬ Readable app f cid c name) →
      Unheard app Kind evs f now (.text "Could not parse input data" 400)
  | kind (cid : String) (c : Credential) (name : String) : Readable app f cid c name →
      ¬ Kind c.response → Unheard app Kind evs f now (.text "Invalid response type" 400)
  | challenge (cid : String) (c : Credential) (name : String) : Readable app f cid c name →
      Kind c.response → (∀ n ch t, app.rowId cid = some n → ¬ WasIssued app evs n ch t) →
      Unheard app Kind evs f now (.text "Could not find challenge matching given id" 400)
  | user (n : Nat) (c : Credential) (name : String) (ch : Bytes) (t : Int) :
      Submits app f n c name → Kind c.response → WasIssued app evs n ch t → (∀ h, ¬ AccountOpened evs name h) →
      Unheard app Kind evs f now (.text "Invalid username" 400)
  | late (n : Nat) (c : Credential) (name : String) (h ch : Bytes) (t : Int) :
      Submits app f n c name → Kind c.response → WasIssued app evs n ch t → AccountOpened evs name h →
      60000 < now - t → Unheard app Kind evs f now (.text "Timeout" 408)

/-- The reply to a request after a history. -/
inductive Answer (app : App) (evs : List Event) : Event → Reply → Prop
  -- registration request
  | registrationNoName (h ch : Bytes) (t : Int) :
      Answer app evs (.registrationRequest none h ch t) (.text "Bad Request" 400)
  | handleTaken (name name' : String) (h ch : Bytes) (t : Int) : (∀ h', ¬ AccountOpened evs name h') →
      AccountOpened evs name' h → Answer app evs (.registrationRequest (some name) h ch t) (.crash (.other 0))
  | registrationChallengeTaken (name : String) (h h' ch : Bytes) (t : Int) (n : Nat) (t' : Int) :
      AccountOpened (evs ++ [.registrationRequest (some name) h ch t]) name h' → WasIssued app evs n ch t' →
      Answer app evs (.registrationRequest (some name) h ch t) (.crash (.other 0))
  | registrationIssued (name : String) (h h' ch : Bytes) (t : Int) (n : Nat) (v : PyVal) :
      AccountOpened (evs ++ [.registrationRequest (some name) h ch t]) name h' →
      (∀ m t', ¬ WasIssued app evs m ch t') → NextNumber app evs n → CreationReply name h' ch v →
      Answer app evs (.registrationRequest (some name) h ch t)
        (.json (.dict [(.str "challengeID", .int n), (.str "creationOptions", v)]))
  -- authentication request
  | loginNoName (ch : Bytes) (t : Int) : Answer app evs (.authenticationRequest none ch t) (.text "Bad Request" 400)
  | loginNoUser (name : String) (ch : Bytes) (t : Int) : (∀ h, ¬ AccountOpened evs name h) →
      Answer app evs (.authenticationRequest (some name) ch t) (.text "User not registered" 400)
  | loginChallengeTaken (name : String) (h ch : Bytes) (t : Int) (n : Nat) (t' : Int) : AccountOpened evs name h →
      WasIssued app evs n ch t' → Answer app evs (.authenticationRequest (some name) ch t) (.crash (.other 0))
  | loginIssued (name : String) (h ch : Bytes) (t : Int) (n : Nat) (ids : List Bytes) (v : PyVal) :
      AccountOpened evs name h → (∀ m t', ¬ WasIssued app evs m ch t') → NextNumber app evs n →
      Enrolments app evs name ids → RequestReply ids ch v →
      Answer app evs (.authenticationRequest (some name) ch t)
        (.json (.dict [(.str "challengeID", .int n), (.str "requestOptions", v)]))
  -- registration response
  | registrationUnheard (f : Form) (t : Int) (r : Reply) : Unheard app ForRegistration evs f t r →
      Answer app evs (.registrationResponse f t) r
  | registrationRefused (f : Form) (t : Int) (c : Credential) (ch : Bytes) (name : String) (h : Bytes) (x y : Exc)
      (r : Reply) : Presents app ForRegistration evs f t c ch name h →
      RegistrationRefused app.env (RegistrationCall c (challengeOf ch) (userOf name h)) x → Reported x y →
      Told "Could not handle credential attestation" (.error y) r → Answer app evs (.registrationResponse f t) r
  | registrationNoKey (f : Form) (t : Int) (c : Credential) (ch : Bytes) (name : String) (h : Bytes) (k : CPK) (e : Exc)
      (x : Py Unit) (r : Reply) : Presents app ForRegistration evs f t c ch name h →
      Attests app c (challengeOf ch) (userOf name h) k → KeyEncoded app.env k (.error e) → Wrote (.error e) x →
      Told "Could not handle credential attestation" x r → Answer app evs (.registrationResponse f t) r
  | registrationTaken (f : Form) (t : Int) (c : Credential) (ch : Bytes) (name : String) (h : Bytes) (k : CPK)
      (key : Bytes) : Presents app ForRegistration evs f t c ch name h →
      Attests app c (challengeOf ch) (userOf name h) k → KeyEncoded app.env k (.ok key) → WasRegistered app evs c.rawId →
      Answer app evs (.registrationResponse f t) (.text "Could not handle credential attestation" 400)
  | registered (f : Form) (t : Int) (c : Credential) (ch : Bytes) (name : String) (h : Bytes) (k : CPK) (key : Bytes) :
      Presents app ForRegistration evs f t c ch name h → Attests app c (challengeOf ch) (userOf name h) k →
      KeyEncoded app.env k (.ok key) → ¬ WasRegistered app evs c.rawId →
      Answer app evs (.registrationResponse f t) (.text "Success" 200)
  -- authentication response
  | loginUnheard (f : Form) (t : Int) (r : Reply) : Unheard app ForLogin evs f t r →
      Answer app evs (.authenticationResponse f t) r
  | loginUnknown (f : Form) (t : Int) (c : Credential) (ch : Bytes) (name : String) (h : Bytes) :
      Presents app ForLogin evs f t c ch name h → ¬ WasRegistered app evs c.rawId →
      Answer app evs (.authenticationResponse f t) (.text "Could not handle credential assertion" 400)
  | loginNoKey (f : Form) (t : Int) (c : Credential) (ch : Bytes) (name : String) (h : Bytes) (owner : String)
      (h' key : Bytes) (e x : Exc) (r : Reply) : Presents app ForLogin evs f t c ch name h →
      KeyOnFile app evs c.rawId owner h' key → KeyBytesRefused app.env key e → NotFound (.error e) x →
      Told "Could not handle credential assertion" (.error x) r → Answer app evs (.authenticationResponse f t) r
  | loginRefused (f : Form) (t : Int) (c : Credential) (ch : Bytes) (name : String) (h : Bytes) (cd : CredentialData)
      (x y : Exc) (r : Reply) : Presents app ForLogin evs f t c ch name h → OnFile app evs c.rawId cd →
      AuthenticationRefused app.env (LoginCall c (challengeOf ch) (userOf name h)) cd x → Reported x y →
      Told "Could not handle credential assertion" (.error y) r → Answer app evs (.authenticationResponse f t) r
  | loggedIn (f : Form) (t : Int) (c : Credential) (ch : Bytes) (name : String) (h : Bytes) (cd : CredentialData)
      (user : UserEntity) (rp : RpEntity) (ad : AuthData) : Presents app ForLogin evs f t c ch name h →
      OnFile app evs c.rawId cd → AssertionOk app.env (LoginCall c (challengeOf ch) (userOf name h)) cd user rp ad →
      Answer app evs (.authenticationResponse f t) (.text "Success" 200)

end WebAuthn.Flask
