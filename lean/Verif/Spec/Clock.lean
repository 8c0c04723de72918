import Verif.Spec.Flask
import Verif.Spec.Swept

/-!
# Other clocks (C104)
-/

namespace WebAuthn.Flask

open WebAuthn WebAuthn.Spec

/-- The time at which a request is served. -/
def timeOf : Event → Int
  | .registrationRequest _ _ _ t => t
  | .registrationResponse _ t => t
  | .authenticationRequest _ _ t => t
  | .authenticationResponse _ t => t

/-- The same request at another time. -/
def atTime (t : Int) : Event → Event
  | .registrationRequest n h c _ => .registrationRequest n h c t
  | .registrationResponse f _ => .registrationResponse f t
  | .authenticationRequest n c _ => .authenticationRequest n c t
  | .authenticationResponse f _ => .authenticationResponse f t

/-- The same tables, with other times. -/
def Retimed (db db' : Db) : Prop :=
  db'.users = db.users ∧ db'.credentials = db.credentials ∧
  db'.challenges.map (fun c => (c.id, c.request, c.userId)) =
    db.challenges.map (fun c => (c.id, c.request, c.userId))

/-- The numbers of the challenges that are too old at the time. -/
def tooOld (db : Db) (t : Int) : List Nat :=
  (db.challenges.filter fun c => 60000 < t - c.timestamp).map Challenge.id

/-- The same requests by two clocks, which agree on which challenges are too old whenever a request
is served. -/
inductive Agreeing (app : App) : List Event → List Event → Prop
  | nil : Agreeing app [] []
  | snoc (evs evs' : List Event) (e : Event) (t : Int) : Agreeing app evs evs' →
      tooOld (run app evs) (timeOf e) = tooOld (run app evs') t →
      Agreeing app (evs ++ [e]) (evs' ++ [atTime t e])

/-- A challenge that was found too old leads to no success later. -/
def StaysOld (rep : List Event → Event → Reply) (app : App) (good : List Event → Prop) : Prop :=
  ∀ pre e mid e' f t t' n c c' name name', good (pre ++ e :: mid ++ [e']) →
    (e = .registrationResponse f t ∨ e = .authenticationResponse f t) → Submits app f n c name →
    rep pre e = .text "Timeout" 408 → ¬ SucceedsBy rep app (pre ++ e :: mid) e' t' n c' name'

end WebAuthn.Flask
