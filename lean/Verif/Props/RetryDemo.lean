import Verif.Props.RetryKills
import Verif.Props.KillsDemo

/-!
# Concrete runs in which a registration is sent again (C111)
-/

namespace WebAuthn.Flask

open WebAuthn WebAuthn.Spec WebAuthn.Props

namespace RetryDemo

open Run

theorem issued : Issues app [] e1 1 challenge1 0 "ada" := by
  obtain ⟨v, hv, -⟩ := creation_reply 1 { name := "ada", id := handle1, displayName := "ada" } challenge1
  refine ⟨⟨"creationOptions", v, ?_⟩, Or.inl ⟨handle1, rfl⟩⟩
  rw [← hv]
  rfl

/-- Ada registers, logs in, and sends the registration again (an instance of `C111_repaired`). -/
example : retryReply app ([e1, e2] ++ e3 :: [e4]) e3 = success := by
  refine C111_repaired app [e1, e2] [e4] _ _ _ 1 (regCredential challenge1) "ada" [] e1 challenge1 0 "ada"
    (C111_success reply3) (form1 _ _) ⟨[e2], rfl⟩ ?_ (by decide)
  obtain ⟨⟨key, v, h⟩, h'⟩ := issued
  exact ⟨⟨key, v, (C111_others _ (by intro _ _ h; cases h)).trans h⟩, h'⟩

/-- The application does not take it (an instance of `C111_never`). -/
example : reply app ([e1, e2] ++ e3 :: [e4]) e3 ≠ success := C111_never reply3

/-- An instance of `C111_refuted`. -/
example : ¬ Repeatable (reply app) app := C111_refuted reply3

/-- An instance of `C111_login`. -/
example : ∃ n c name pre e k cdj raw sig handle, Submits app (formOf "1" (authCredential 1 challenge1) "ada") n c name ∧
    Occurs [e1, e2, e3] pre e ∧ RegistersBy (retryReply app) app pre e c.rawId name k ∧
    c.response = .assertion cdj raw sig handle ∧ SignedBy app.env k sig (raw ++ app.env.sha256 cdj) :=
  C111_login Demo.codec (C111_success reply4)

/-- The hypothesis of `C111_registered`. -/
example : ∃ k, RegistersBy (retryReply app) app [e1, e2] e3 Demo.credId "ada" k := by
  obtain ⟨n, c, name, ch, u, o, raw, acd, k, key, g1, -, -, -, -, -, ⟨cdj, ob, g7, -, g8, -⟩, g9, g10, -⟩ :=
    registration_success reply3
  obtain ⟨rfl, rfl, rfl⟩ := submits_unique g1 (form1 (regCredential challenge1) "ada")
  exact ⟨k, _, _, _, _, cdj, ob, o, raw, acd, rfl, C111_success reply3, form1 _ _, rfl, g7, g8, g9, g10⟩

/-- Ada's registration is stored and the reply lost; it is sent again (an instance of `C111_after_kill`). -/
example : (retryStep app (.registrationResponse (formOf "1" (regCredential challenge1) "ada") 20000)
    (tablesAfter Task.step app Threads.reqs Kills.before)).1 = success := by
  have h1 : outcome Task.step app Threads.reqs Kills.before 1 = some success := by
    rw [outcome_log halts_step, Kills.log_before, answerBy_step]
    exact Threads.answer1 (by decide) (by decide)
  have h2 : IssuedBy (outcome Task.step app Threads.reqs) Threads.reqs Kills.before 0 1 challenge1 0 "ada" := by
    obtain ⟨⟨key, v, h1⟩, h2⟩ := issuedAt_mono (q := [0, 0, 0, 1, 1, 1, 1, 3]) (by decide) Threads.issued0
    refine ⟨⟨key, v, ?_⟩, h2⟩
    rw [outcome_log halts_step, Kills.log_before, answerBy_step]
    exact h1
  have h3 := C111_after_kill (app := app) (reqs := Threads.reqs) (i := 1)
    (f := formOf "1" (regCredential challenge1) "ada") (now' := 20000) rfl (form1 _ _) h1 h2 (by decide)
  rw [h3]

end RetryDemo

end WebAuthn.Flask
