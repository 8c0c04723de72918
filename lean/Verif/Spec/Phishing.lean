import Verif.Spec.Page
import Verif.Spec.FlaskThreads

/-!
# Specification of what the holder of a key approved

An authenticator signs only what the user approves on a page, and the browser writes
the origin of that page into the client data.  The cryptography enters as hypotheses
about what was submitted, not about all byte strings: nobody submitted a forged
signature, nor client data that collide with approved ones.
-/

namespace WebAuthn.Flask

open WebAuthn WebAuthn.Spec

/-- The use of a key that a user approved: on a page of the origin `origin` a script
asked for a ceremony of the type `type` with the challenge; the browser made the client
data `cdj`, and the authenticator signed `raw` and their hash. -/
structure Approval where
  origin : String
  type : String
  challenge : Bytes
  cdj : Bytes
  raw : Bytes

/-- The key `k` is used by an authenticator after an approval only.  `sent cdj raw sig`
are the assertions that anybody submitted. -/
structure Holder (env : Env) (k : CPK) (sent : Bytes → Bytes → Bytes → Prop)
    (acts : Approval → Prop) : Prop where
  /-- The browser says what page it is on. -/
  browser : ∀ a, acts a → ClientDataFor a.type a.challenge a.origin a.cdj
  /-- No signature is forged. -/
  unforged : ∀ cdj raw sig, sent cdj raw sig → SignedBy env k sig (raw ++ env.sha256 cdj) →
    ∃ a, acts a ∧ raw ++ env.sha256 cdj = a.raw ++ env.sha256 a.cdj
  /-- No collision of SHA-256 is found. -/
  noCollision : ∀ cdj raw sig a, sent cdj raw sig → acts a →
    env.sha256 cdj = env.sha256 a.cdj → cdj = a.cdj
  /-- A digest has 32 bytes. -/
  digest : ∀ b, (env.sha256 b).length = 32

/-- The assertions in the events. -/
def Sent (app : App) (evs : List Event) (cdj raw sig : Bytes) : Prop :=
  ∃ f t n c name handle, .authenticationResponse f t ∈ evs ∧ Submits app f n c name ∧
    c.response = .assertion cdj raw sig handle

/-- The assertions in the requests. -/
def SentIn {ι : Type} (app : App) (reqs : ι → Event) (cdj raw sig : Bytes) : Prop :=
  ∃ i f t n c name handle, reqs i = .authenticationResponse f t ∧ Submits app f n c name ∧
    c.response = .assertion cdj raw sig handle

/-- `a` is the approval of the login at the application with the response `c`: it was on
its page, with the challenge `ch`, for its RP id, by a user who was present. -/
structure Approves (env : Env) (a : Approval) (c : Credential) (ch : Bytes) : Prop where
  page : OriginOf env a.origin ⟨"http", "localhost:5000", 5000⟩
  login : a.type = "webauthn.get"
  challenge : a.challenge = ch
  rp : RpHashOk env a.raw "localhost"
  present : FlagSet a.raw 0
  response : ∃ sig handle, c.response = .assertion a.cdj a.raw sig handle

/-- `a` is the approval of the authentication with the arguments `args` for the Relying
Party `rp`. -/
structure ApprovesCall (env : Env) (a : Approval) (args : AssertionArgs) (rp : RpEntity) : Prop where
  page : ∃ o, OriginOf env a.origin o ∧ ∃ e ∈ originList args.expectedOrigin, OriginOf env e o
  login : a.type = "webauthn.get"
  challenge : a.challenge = args.expectedChallenge
  rp : RpHashOk env a.raw rp.id
  present : FlagSet a.raw 0
  verified : args.requireUserVerification = true → FlagSet a.raw 2
  response : ∃ sig handle, args.credential.response = .assertion a.cdj a.raw sig handle

/-- The assertions in the arguments of calls of `handle_credential_assertion`. -/
def SentTo {ι : Type} (calls : ι → AssertionArgs) (cdj raw sig : Bytes) : Prop :=
  ∃ i handle, (calls i).credential.response = .assertion cdj raw sig handle

/-- The event number `i` of the history is a successful login with the response `c`. -/
def LoginAt (app : App) (evs : List Event) (c : Credential) (i : Nat) : Prop :=
  ∃ f t n name, evs[i]? = some (.authenticationResponse f t) ∧
    reply app (evs.take i) (.authenticationResponse f t) = success ∧ Submits app f n c name

/-- The request `i` has been a successful login with the response `c`. -/
def LoginIn {ι : Type} [DecidableEq ι] (app : App) (reqs : ι → Event) (sched : List ι) (c : Credential)
    (i : ι) : Prop :=
  ∃ f t n name, reqs i = .authenticationResponse f t ∧ answer app reqs sched i = some success ∧
    Submits app f n c name

/-- Approvals can be assigned to the logins with the credential `id` (`login c i`: the
login `i` has the response `c`) so that none is assigned to two of them. -/
def OneEach {ι : Type} (env : Env) (acts : Approval → Prop) (login : Credential → ι → Prop) (id : Bytes) :
    Prop :=
  ∃ approval : ι → Option Approval,
    (∀ i c, login c i → c.rawId = id → ∃ a ch, approval i = some a ∧ acts a ∧ Approves env a c ch) ∧
    ∀ i j c c', login c i → c.rawId = id → login c' j → c'.rawId = id → approval i = approval j → i = j

/-! ## Who may log in under a name -/

/-- After the history `pre`, the response `e` was answered (`rep`) with success, and
registered for the user `name` the credential `id` with the attested key `k`. -/
def RegistersBy (rep : List Event → Event → Reply) (app : App) (pre : List Event) (e : Event)
    (id : Bytes) (name : String) (k : CPK) : Prop :=
  ∃ f t n c cdj ob o raw acd, e = .registrationResponse f t ∧ rep pre e = success ∧
    Submits app f n c name ∧ c.rawId = id ∧ c.response = .attestation cdj ob ∧
    AttObjOf app.env ob o raw ∧ o.authData.attested = some acd ∧ acd.credentialPublicKey = some k

/-- After the history `pre`, the response `e` was answered (`rep`) with success, and was an
authentication with the credential `id` and the counter `m`. -/
def AuthenticatesBy (rep : List Event → Event → Reply) (app : App) (pre : List Event) (e : Event)
    (id : Bytes) (m : Nat) : Prop :=
  ∃ f t n c name, e = .authenticationResponse f t ∧ rep pre e = success ∧
    Submits app f n c name ∧ c.rawId = id ∧ HasCounter c m

/-- The first to register a credential under a name, with the key `k`, owns the name: a
login under it succeeds only if the holder of the key approved it. -/
def OwnerOnly (rep : List Event → Event → Reply) (app : App) : Prop :=
  ∀ evs pre e id name k acts f now n c,
    Occurs evs pre e → RegistersBy rep app pre e id name k →
    (∀ pre' e' id' k', Occurs pre pre' e' → ¬ RegistersBy rep app pre' e' id' name k') →
    Holder app.env k (Sent app (evs ++ [.authenticationResponse f now])) acts →
    rep evs (.authenticationResponse f now) = success → Submits app f n c name →
    ∃ a ch, acts a ∧ Approves app.env a c ch

end WebAuthn.Flask
