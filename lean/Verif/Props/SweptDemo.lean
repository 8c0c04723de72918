import Verif.Props.Swept
import Verif.Props.FlaskDemo

/-!
# The example application without stale challenges: a concrete run
-/

namespace WebAuthn.Flask.Run

open WebAuthn WebAuthn.Spec WebAuthn.Props

/-- The login of the demonstration. -/
theorem swept_clock : ClockForward ([e1, e2, e3] ++ [e4]) := by
  simp only [ClockForward, at_clock]
  simp [e1, e2, e3, e4, Event.clock]

theorem swept_fresh : NotDrawnAgain ([e1, e2, e3] ++ [e4]) := by
  have : challenge1 ≠ challenge2 := by decide
  simp only [NotDrawnAgain]
  simp [e1, e2, e3, e4, asked]
  grind

/-- `C95_repaired_success` at work: the login succeeds. -/
example : sweptReply app [e1, e2, e3] e4 = success :=
  (C95_repaired_success swept_clock swept_fresh).mpr reply4

/-- `C95_repaired_few` at work: somebody asks more than a minute after the requests, and nothing is
kept. -/
example : (sweptRun app ([e1, e2, e3] ++ [.authenticationRequest none [] 61001])).db.challenges = [] := by
  have h := C95_repaired_few app [e1, e2, e3] (.authenticationRequest none [] 61001) 61001
    (.authenticationRequest ..)
  exact List.length_eq_zero_iff.mp (Nat.le_zero.mp h)

/-- `C95_growth_partial` at work: the application keeps both challenges. -/
example : (run app ([e1, e2] ++ [e3])).challenges = [⟨1, challenge1, 0, 1⟩, ⟨2, challenge2, 1000, 2⟩] := by
  rw [(C95_growth_partial app [e1, e2]).2 e3 ⟨_, _, Or.inl rfl⟩]
  rfl

end WebAuthn.Flask.Run
