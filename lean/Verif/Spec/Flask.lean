import Verif.Model.Flask
import Verif.Spec.Counter

/-!
# Specification of the example application

Histories, by what was submitted and what was answered.
-/

namespace WebAuthn.Flask

open WebAuthn WebAuthn.Spec

/-- `e` was handled in the history `evs`, after the events `pre`. -/
def Occurs (evs pre : List Event) (e : Event) : Prop := ∃ post, evs = pre ++ e :: post

/-- The form of a response names the challenge number `n` and the user `name`
and contains the credential `c`. -/
def Submits (app : App) (f : Form) (n : Nat) (c : Credential) (name : String) : Prop :=
  ∃ cid text d, f.challengeID = some cid ∧ app.rowId cid = some n ∧ f.credential = some text ∧
    app.env.jsonLoads text = .ok (.dict d) ∧ CredentialOf d c ∧ f.username = some name

/-- After the history `pre`, the request `e` by the user `name` at the time `t`
was answered (`rep`) with the challenge number `n` whose bytes are `ch`. -/
def IssuesBy (rep : List Event → Event → Reply) (pre : List Event) (e : Event) (n : Nat) (ch : Bytes)
    (t : Int) (name : String) : Prop :=
  (∃ key v, rep pre e = .json (.dict [(.str "challengeID", .int n), (.str key, v)])) ∧
  ((∃ h, e = .registrationRequest (some name) h ch t) ∨
    e = .authenticationRequest (some name) ch t)

/-- The application issued a challenge. -/
def Issues (app : App) : List Event → Event → Nat → Bytes → Int → String → Prop :=
  IssuesBy (reply app)

/-- After the history `pre`, the response `e` registered for the user `name` the
credential `id` with the attested key `k`. -/
def Registers (app : App) (pre : List Event) (e : Event) (id : Bytes) (name : String) (k : CPK) :
    Prop :=
  ∃ f t n c cdj ob o raw acd, e = .registrationResponse f t ∧ reply app pre e = success ∧
    Submits app f n c name ∧ c.rawId = id ∧ c.response = .attestation cdj ob ∧
    AttObjOf app.env ob o raw ∧ o.authData.attested = some acd ∧ acd.credentialPublicKey = some k

/-- After the history `pre`, the response `e` was a successful authentication
with the credential `id` and the counter `m`. -/
def Authenticates (app : App) (pre : List Event) (e : Event) (id : Bytes) (m : Int) : Prop :=
  ∃ f t n c name, ∃ k : Nat, e = .authenticationResponse f t ∧ reply app pre e = success ∧
    Submits app f n c name ∧ c.rawId = id ∧ m = k ∧ HasCounter c k

/-- After the history `pre`, the response `e` at the time `t` was answered (`rep`)
with success; it named the challenge `n` and the user `name` and had the
credential `c`. -/
def SucceedsBy (rep : List Event → Event → Reply) (app : App) (pre : List Event) (e : Event) (t : Int)
    (n : Nat) (c : Credential) (name : String) : Prop :=
  rep pre e = success ∧ ∃ f, (e = .registrationResponse f t ∨ e = .authenticationResponse f t) ∧
    Submits app f n c name

/-- The application answered a response with success. -/
def Succeeds (app : App) : List Event → Event → Int → Nat → Credential → String → Prop :=
  SucceedsBy (reply app) app

/-- A challenge leads to at most one success in a history. -/
def SingleUse (rep : List Event → Event → Reply) (app : App) : Prop :=
  ∀ pre e mid e' t t' n c c' name name', SucceedsBy rep app pre e t n c name →
    ¬ SucceedsBy rep app (pre ++ e :: mid) e' t' n c' name'

/-- A success is for the user the challenge was issued to. -/
def UserBound (rep : List Event → Event → Reply) (app : App) : Prop :=
  ∀ evs e t n c name pre e' ch t' name', SucceedsBy rep app evs e t n c name → Occurs evs pre e' →
    IssuesBy rep pre e' n ch t' name' → name' = name

end WebAuthn.Flask
