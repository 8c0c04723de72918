import Verif.Spec.Restore
import Verif.Model.Revoke

/-!
# What holds where credentials are revoked
-/

namespace WebAuthn.Flask

open WebAuthn.Spec

/-- The request is a response with the credential `id`. -/
def Concerns (app : App) (e : Event) (id : Bytes) : Prop :=
  ∃ f t n c name, (e = .registrationResponse f t ∨ e = .authenticationResponse f t) ∧ Submits app f n c name ∧ c.rawId = id

/-- The operation number `i` is the request `e`. -/
def AskedAt (ops : List Op) (i : Nat) (e : Event) : Prop := ops[i]? = some (.request e)

/-- The credential `id` was revoked after the operation number `i`. -/
def RevokedAfter (ops : List Op) (i : Nat) (id : Bytes) : Prop := ∃ j, i < j ∧ ops[j]? = some (.revoke id)

/-- The requests among the operations. -/
def askedIn (ops : List Op) : List Event :=
  ops.filterMap fun
    | .request e => some e
    | .revoke _ => none

/-- The operation number `i` issued the challenge. -/
def ChallengedAt (rep : List Op → Event → Reply) (ops : List Op) (i n : Nat) (ch : Bytes) (t : Int) (name : String) : Prop :=
  ∃ e, AskedAt ops i e ∧ IssuesBy (fun _ => rep (ops.take i)) [] e n ch t name

/-- The operation number `i` registered the credential. -/
def EnrolledAt (rep : List Op → Event → Reply) (app : App) (ops : List Op) (i : Nat) (id : Bytes) (name : String)
    (k : CPK) : Prop :=
  ∃ e, AskedAt ops i e ∧ RegistersBy (fun _ => rep (ops.take i)) app [] e id name k

/-- The operation number `i` was a login with the response `c`. -/
def EnteredAt (rep : List Op → Event → Reply) (app : App) (ops : List Op) (c : Credential) (i : Nat) : Prop :=
  ∃ f t n name, AskedAt ops i (.authenticationResponse f t) ∧ rep (ops.take i) (.authenticationResponse f t) = success ∧
    Submits app f n c name

/-- A revoked credential is good for nothing, unless it has been registered again. -/
def RevocationHolds (rep : List Op → Event → Reply) (app : App) : Prop :=
  ∀ ops f now n c name, rep ops (.authenticationResponse f now) = success → Submits app f n c name →
    ∃ i k cdj raw sig handle, EnrolledAt rep app ops i c.rawId name k ∧ ¬ RevokedAfter ops i c.rawId ∧
      c.response = .assertion cdj raw sig handle ∧ SignedBy app.env k sig (raw ++ app.env.sha256 cdj)

/-- Nobody logs in with a credential that was revoked. -/
def Gone (rep : List Op → Event → Reply) (app : App) : Prop :=
  ∀ ops f now n c name, Submits app f n c name → .revoke c.rawId ∈ ops →
    rep ops (.authenticationResponse f now) ≠ success

/-- A success is for a challenge that was issued at most 60000 ms before. -/
def FreshThough (rep : List Op → Event → Reply) (app : App) : Prop :=
  ∀ ops e t n c name, SucceedsBy (fun _ => rep ops) app [] e t n c name →
    ∃ i ch t' name' d text, ChallengedAt rep ops i n ch t' name' ∧ t - t' ≤ 60000 ∧
      ClientJson app.env c.response.clientDataJSON d ∧ Lookup d (.str "challenge") (.str text) ∧ Base64UrlText text ch

/-- The counter of a login is above those of the logins with the credential since it was revoked last. -/
def IncreasingThough (rep : List Op → Event → Reply) (app : App) : Prop :=
  ∀ ops i c m f now n c' name' m', EnteredAt rep app ops c i → HasCounter c m → ¬ RevokedAfter ops i c.rawId →
    rep ops (.authenticationResponse f now) = success → Submits app f n c' name' → c'.rawId = c.rawId →
    HasCounter c' m' → m < m'

/-- However credentials are revoked, one approval is good for one login. -/
def OneEachRevoked (rep : List Op → Event → Reply) (app : App) (good : List Op → Bytes → Prop) : Prop :=
  ∀ ops k acts i id name, good ops id → Holder app.env k (Sent app (askedIn ops)) acts → EnrolledAt rep app ops i id name k →
    (∀ j name' k', EnrolledAt rep app ops j id name' k' → k' = k) →
    OneEach app.env acts (EnteredAt rep app ops) id

end WebAuthn.Flask
