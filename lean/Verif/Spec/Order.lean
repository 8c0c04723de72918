import Verif.Spec.Isolation

/-!
# Requests whose order does not matter
-/

namespace WebAuthn.Flask

open WebAuthn WebAuthn.Spec

/-- The form of a response; requests for a challenge have none. -/
def Event.form : Event → Option Form
  | .registrationResponse f _ | .authenticationResponse f _ => some f
  | _ => none

/-- After the history `evs` the requests have nothing to do with each other: they name different users, at most one asks for
a challenge (these are numbered), the challenges that are answered were issued in `evs`, and two responses are of different
credentials. -/
structure Independent (app : App) (evs : List Event) (e e' : Event) : Prop where
  names : e.name ≠ e'.name
  response : e.form.isSome ∨ e'.form.isSome
  issued : ∀ x f cid c name n, x = e ∨ x = e' → x.form = some f → Readable app f cid c name → app.rowId cid = some n →
    ∃ pre y ch t name', Occurs evs pre y ∧ Issues app pre y n ch t name'
  credentials : ∀ f f' cid c name cid' c' name', e.form = some f → e'.form = some f' → Readable app f cid c name →
    Readable app f' cid' c' name' → c.rawId ≠ c'.rawId

/-- The order of the two makes no difference, to themselves and to whoever comes after them. -/
def Exchangeable (rep : List Event → Event → Reply) (evs : List Event) (e e' : Event) : Prop :=
  rep evs e = rep (evs ++ [e']) e ∧ rep (evs ++ [e]) e' = rep evs e' ∧
  ∀ post x, rep (evs ++ e :: e' :: post) x = rep (evs ++ e' :: e :: post) x

end WebAuthn.Flask
