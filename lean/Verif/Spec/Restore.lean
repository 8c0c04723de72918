import Verif.Spec.Swept
import Verif.Spec.Initial
import Verif.Model.Restore

/-!
# What holds where backups are put back

`Stands`: what the request number `i` did has not been undone.
-/

namespace WebAuthn.Flask

open WebAuthn.Spec

/-- The request number `i` stands after the steps. -/
inductive Stands : List Step → Nat → Prop
  | now (steps e) : Stands (steps ++ [.request e]) steps.length
  | later (steps e i) : Stands steps i → Stands (steps ++ [.request e]) i
  | restored (steps n i) : Stands (steps.take n) i → Stands (steps ++ [.restore n]) i

/-- The requests among the steps. -/
def requests (steps : List Step) : List Event :=
  steps.filterMap fun
    | .request e => some e
    | .restore _ => none

/-- The step number `i` is the request `e`. -/
def RequestAt (steps : List Step) (i : Nat) (e : Event) : Prop := steps[i]? = some (.request e)

/-- How a request is answered after the first `i` steps, if answers are as `rep` says. -/
abbrev replyAt (rep : List Step → Event → Reply) (steps : List Step) (i : Nat) (_ : List Event) : Event → Reply :=
  rep (steps.take i)

/-- The step number `i` issued the challenge. -/
def IssuesAt (rep : List Step → Event → Reply) (steps : List Step) (i n : Nat) (ch : Bytes) (t : Int) (name : String) : Prop :=
  ∃ e, RequestAt steps i e ∧ IssuesBy (replyAt rep steps i) [] e n ch t name

/-- The step number `i` registered the credential. -/
def RegistersAt (rep : List Step → Event → Reply) (app : App) (steps : List Step) (i : Nat) (id : Bytes) (name : String)
    (k : CPK) : Prop :=
  ∃ e, RequestAt steps i e ∧ RegistersBy (replyAt rep steps i) app [] e id name k

/-- The step number `i` was a login with the credential and the counter. -/
def AuthenticatesAt (rep : List Step → Event → Reply) (app : App) (steps : List Step) (i : Nat) (id : Bytes)
    (m : Nat) : Prop :=
  ∃ e, RequestAt steps i e ∧ AuthenticatesBy (replyAt rep steps i) app [] e id m

/-- The step number `i` was a login with the response `c`, whose credential had the key `k`. -/
def KeyLoginAt (rep : List Step → Event → Reply) (app : App) (steps : List Step) (k : CPK) (c : Credential)
    (i : Nat) : Prop :=
  ∃ f t n name j name', RequestAt steps i (.authenticationResponse f t) ∧
    rep (steps.take i) (.authenticationResponse f t) = success ∧ Submits app f n c name ∧
    Stands (steps.take i) j ∧ RegistersAt rep app steps j c.rawId name' k

/-- Whenever a copy has been put back, nobody logs in before the challenges in it are too old. -/
def Settled (steps : List Step) : Prop :=
  ∀ i n j e ch t' l f t, steps[i]? = some (.restore n) → Stands ((steps.take i).take n) j →
    RequestAt steps j e → asked e = some (ch, t') → i < l →
    RequestAt steps l (.authenticationResponse f t) → 60000 < t - t'

/-- If the request is a response, it has the number of a challenge that was issued after the last time a
copy was put back. -/
def SinceRestored (rep : List Step → Event → Reply) (app : App) (steps : List Step) (e : Event) : Prop :=
  ∀ f t n c name, (e = .registrationResponse f t ∨ e = .authenticationResponse f t) → Submits app f n c name →
    ∃ p ch t' name', IssuesAt rep steps p n ch t' name' ∧ ∀ q m, p < q → steps[q]? ≠ some (.restore m)

/-- However copies are put back, one approval is good for one login. -/
def OneEachRestored (rep : List Step → Event → Reply) (app : App) (good : List Step → Prop) : Prop :=
  ∀ steps k acts id, Holder app.env k (Sent app (requests steps)) acts → NotDrawnAgain (requests steps) →
    good steps → OneEach app.env acts (KeyLoginAt rep app steps k) id

end WebAuthn.Flask
