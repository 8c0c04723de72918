import Verif.Spec.Phishing
import Verif.Model.Accounts

/-!
# What holds where accounts are deleted
-/

namespace WebAuthn.Flask

open WebAuthn.Spec

/-- The operation number `i` registered the credential. -/
def JoinedAt (rep : List AccountOp → Event → Reply) (app : App) (ops : List AccountOp) (i : Nat) (id : Bytes)
    (name : String) (k : CPK) : Prop :=
  ∃ e, ops[i]? = some (.request e) ∧ RegistersBy (fun _ => rep (ops.take i)) app [] e id name k

/-- The operation number `i` issued the challenge. -/
def GivenAt (rep : List AccountOp → Event → Reply) (ops : List AccountOp) (i n : Nat) (ch : Bytes) (t : Int)
    (name : String) : Prop :=
  ∃ e, ops[i]? = some (.request e) ∧ IssuesBy (fun _ => rep (ops.take i)) [] e n ch t name

/-- The account was deleted after the operation number `i`. -/
def DeletedAfter (ops : List AccountOp) (i : Nat) (name : String) : Prop :=
  ∃ j : Nat, i < j ∧ ops[j]? = some (.delete name)

/-- Who logs in under a name does so with a credential that was registered under it since it was deleted
last. -/
def OwnCredentials (rep : List AccountOp → Event → Reply) (app : App) : Prop :=
  ∀ ops f now n c name, rep ops (.authenticationResponse f now) = success → Submits app f n c name →
    ∃ i k cdj raw sig handle, JoinedAt rep app ops i c.rawId name k ∧ ¬ DeletedAfter ops i name ∧
      c.response = .assertion cdj raw sig handle ∧ SignedBy app.env k sig (raw ++ app.env.sha256 cdj)

/-- The same, under whatever name. -/
def SomeCredentials (rep : List AccountOp → Event → Reply) (app : App) : Prop :=
  ∀ ops f now n c name, rep ops (.authenticationResponse f now) = success → Submits app f n c name →
    ∃ i name' k cdj raw sig handle, JoinedAt rep app ops i c.rawId name' k ∧
      c.response = .assertion cdj raw sig handle ∧ SignedBy app.env k sig (raw ++ app.env.sha256 cdj)

/-- A success is for a challenge that was issued at most 60000 ms before. -/
def GivenFresh (rep : List AccountOp → Event → Reply) (app : App) : Prop :=
  ∀ ops e t n c name, SucceedsBy (fun _ => rep ops) app [] e t n c name →
    ∃ i ch t' name' d text, GivenAt rep ops i n ch t' name' ∧ t - t' ≤ 60000 ∧
      ClientJson app.env c.response.clientDataJSON d ∧ Lookup d (.str "challenge") (.str text) ∧ Base64UrlText text ch

/-- The operation number `i` was a login with the credential `id` and the counter `m`. -/
def LoggedAt (rep : List AccountOp → Event → Reply) (app : App) (ops : List AccountOp) (i : Nat) (id : Bytes) (m : Nat) : Prop :=
  ∃ f t n c name, ops[i]? = some (.request (.authenticationResponse f t)) ∧
    rep (ops.take i) (.authenticationResponse f t) = success ∧ Submits app f n c name ∧ c.rawId = id ∧ HasCounter c m

/-- The operation number `i` asked for a registration under the name. -/
def AppliedAt (ops : List AccountOp) (i : Nat) (name : String) : Prop :=
  ∃ h ch t, ops[i]? = some (.request (.registrationRequest (some name) h ch t))

/-- The application does not know a name that was deleted, until somebody asks to register under it. -/
def NameGone (rep : List AccountOp → Event → Reply) : Prop :=
  ∀ ops name ch t, (∀ i, AppliedAt ops i name → DeletedAfter ops i name) →
    rep ops (.authenticationRequest (some name) ch t) = .text "User not registered" 400

end WebAuthn.Flask
