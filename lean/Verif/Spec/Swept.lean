import Verif.Model.Flask

/-!
# What the tables of the example application hold
-/

namespace WebAuthn.Flask

/-- The time of a request. -/
inductive At : Event → Int → Prop
  | registrationRequest (n h c t) : At (.registrationRequest n h c t) t
  | registrationResponse (f t) : At (.registrationResponse f t) t
  | authenticationRequest (n c t) : At (.authenticationRequest n c t) t
  | authenticationResponse (f t) : At (.authenticationResponse f t) t

/-- The bytes drawn for a challenge and the time, for a request of one by a user who gives a name. -/
def asked : Event → Option (Bytes × Int)
  | .registrationRequest (some _) _ ch t | .authenticationRequest (some _) ch t => some (ch, t)
  | _ => none

/-- A form is submitted. -/
def IsResponse (e : Event) : Prop :=
  ∃ f t, e = .registrationResponse f t ∨ e = .authenticationResponse f t

/-- The clock does not go backwards. -/
def ClockForward (evs : List Event) : Prop :=
  evs.Pairwise fun e e' => ∀ t t', At e t → At e' t' → t ≤ t'

/-- The bytes of a challenge are not drawn again. -/
def NotDrawnAgain (evs : List Event) : Prop :=
  evs.Pairwise fun e e' => ∀ ch t t', asked e = some (ch, t) → asked e' = some (ch, t') → False

/-- The requests of challenges in the last 60000 ms before the time `now`. -/
def recent (now : Int) (evs : List Event) : List (Bytes × Int) :=
  (evs.filterMap asked).filter fun r => decide (now - r.2 ≤ 60000)

/-- No challenge is kept that was drawn more than 60000 ms before the last request: the tables of
challenges are `kept`. -/
def NoneStale (kept : List Event → List Challenge) : Prop :=
  ∀ evs e now, At e now → ∀ c ∈ kept (evs ++ [e]), now - c.timestamp ≤ 60000

end WebAuthn.Flask
