import Verif.Props.Kills
import Verif.Props.LockoutDemo
import Verif.Props.FlaskAtomicDemo

/-!
# Concrete runs of the example application, killed at any time (C110)
-/

namespace WebAuthn.Flask

open WebAuthn WebAuthn.Spec WebAuthn.Props

namespace Kills

open Run Threads

/-- Ada asks for a registration and registers, and 3 reads the challenge; the process is killed before any of them is
answered. -/
def before : List (Tick Nat) := [0, 0, 0, 1, 1, 1, 1, 3].map .statement ++ [.kill]

/-- Then Ada logs in. -/
def after : List (Tick Nat) := before ++ List.replicate 6 (.statement 2) ++ [.send 2]

theorem log_before : logOf Task.step app reqs before = [0, 0, 0, 1, 1, 1, 1, 3] := by
  rw [before, logOf_snoc]
  exact logOf_map _

theorem begins : Tick.statement 2 ∉ before := by
  simp [before]

theorem in_received : received Task.step app reqs after 2 = some success := by
  obtain ⟨h, -⟩ := C110_goes_on (app := app) (reqs := reqs) begins
  have h1 : answer app reqs ([0, 0, 0, 1, 1, 1, 1, 3] ++ List.replicate 6 2) 2 = some success :=
    login_first (Or.inl rfl) (by decide) (by decide) (by decide)
  rw [(C63_uninterrupted (app := app) (reqs := reqs) (i := 2) (by decide)).1] at h1
  rw [after, h, tables_log halts_step, log_before, serveBy_step]
  exact h1

/-- An instance of `C110_login`. -/
example : ∃ n c name pre j k cdj raw sig handle, Submits app (formOf "1" (authCredential 1 challenge1) "ada") n c name ∧
    NotYet (outcome Task.step app reqs) after 2 pre ∧
    RegisteredBy (outcome Task.step app reqs) app reqs pre j c.rawId name k ∧
    c.response = .assertion cdj raw sig handle ∧ SignedBy app.env k sig (raw ++ app.env.sha256 cdj) :=
  C110_login Demo.codec (i := 2) rfl in_received

/-- An instance of `C110_fresh`. -/
example : ∃ pre j ch t name', NotYet (outcome Task.step app reqs) after 2 pre ∧
    IssuedBy (outcome Task.step app reqs) reqs pre j 1 ch t name' ∧ 9000 - t ≤ 60000 := by
  obtain ⟨pre, j, ch, t, name', _, _, _, h1, h2, h3, -⟩ :=
    C110_fresh (i := 2) (f := formOf "1" (authCredential 1 challenge1) "ada") (now := 9000) (Or.inr rfl) (form1 _ _)
      in_received
  exact ⟨pre, j, ch, t, name', h1, h2, h3⟩

/-- The hypothesis of `C110_registered_once`. -/
example : RegisteredBy (outcome Task.step app reqs) app reqs before 1 Demo.credId "ada" Demo.key := by
  obtain ⟨f, t, n, c, cdj, ob, o, raw, acd, h1, h2, h3⟩ :=
    registered1 (sched := [0, 0, 0, 1, 1, 1, 1, 3]) (by decide) (by decide)
  refine ⟨f, t, n, c, cdj, ob, o, raw, acd, h1, ?_, h3⟩
  rw [outcome_log halts_step, log_before, answerBy_step]
  exact h2

/-- An instance of `C110_repaired_one_each`. -/
example : OneEach app.env acts (LoginBy (received Task.atomicStep app reqs) app reqs before) Demo.credId := by
  refine C110_repaired_one_each Demo.codec Demo.json Threads.holder (j := 1) (name := "ada") (k := Demo.key) ?_
  obtain ⟨f, t, n, c, cdj, ob, o, raw, acd, h1, h2, h3⟩ :=
    atomic_registered1 (sched := [0, 0, 0, 1, 1, 1, 1, 3]) (by decide) (by decide)
  refine ⟨f, t, n, c, cdj, ob, o, raw, acd, h1, ?_, h3⟩
  rw [outcome_log halts_atomicStep, before, logOf_snoc]
  simp only [logOf_map]
  rw [answerBy_atomicStep]
  exact h2

/-- The login 3, which has read the challenge, has left no trace (an instance of `C110_partial`). -/
example : tablesAfter Task.step app reqs after = tablesAfter Task.step app reqs (leavingOut after 3) :=
  (C110_partial (i := 3) (show attempts after 3 ≤ 5 by decide)).1

end Kills

open Kills

/-- C110 is false of the application: Ada asks for a registration and is not answered, as the process is killed; the user
and the challenge are stored. -/
theorem C110_refuted : ∃ (app : App) (reqs : Nat → Event), CodecLaws app.env ∧ JsonLaw app.env ∧
    ¬ NoTrace (received Task.step app reqs) (tablesAfter Task.step app reqs) := by
  refine ⟨Run.app, Threads.reqs, Demo.codec, Demo.json, fun h => ?_⟩
  have h := h ([0, 0, 0].map .statement) 0 (by
    rw [received, if_neg]
    intro h
    have := sent_mem h
    simp at this)
  rw [show leavingOut (([0, 0, 0] : List Nat).map .statement) 0 = [] from rfl, tables_log halts_step, logOf_snoc] at h
  simp only [logOf_map] at h
  have h := congrArg (fun db => db.users.length) h
  cases h

/-- C110 is false of the application: Ada logs in with a credential whose registration was never answered. -/
theorem C110_answered_refuted : ∃ (app : App) (reqs : Nat → Event), CodecLaws app.env ∧ JsonLaw app.env ∧
    ¬ RegistrationAnswered (received Task.step app reqs) app reqs := by
  refine ⟨Run.app, Threads.reqs, Demo.codec, Demo.json, fun h => ?_⟩
  obtain ⟨pre, j, k, hp, f, t, n, c, cdj, ob, o, raw, acd, h1, h2, -⟩ :=
    h after 2 _ _ _ _ _ rfl (Run.form1 _ _) in_received
  have hj : j = 1 := by
    match j with
    | 1 => rfl
    | 0 | 2 | 3 | 4 | 5 | 6 | 7 => cases h1
    | n + 8 => cases h1
  subst hj
  rw [received] at h2
  split at h2
  · rename_i hs
    have := hp.subset (sent_mem hs)
    simp [after, before] at this
  · cases h2

end WebAuthn.Flask
