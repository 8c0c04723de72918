import Verif.Props.Expired
import Verif.Props.FlaskOutcomeDemo

/-!
# Other clocks, concretely (C104)
-/

namespace WebAuthn.Flask.Run

open Spec Props

/-- Ada logs in by a clock that is an hour slow. -/
theorem C104_instance_slow :
    reply app ([e1, e2, e3].map fun e => atTime (timeOf e + -3600000) e) (atTime (9000 + -3600000) e4) =
      success :=
  (C104_ahead app (-3600000) _ e4).trans reply4

/-- The times between the requests may be others, too. -/
theorem C104_instance_agreeing : Agreeing app [e1, e2] [atTime 17 e1, atTime 40000 e2] ∧
    reply app [atTime 17 e1, atTime 40000 e2] (atTime 60001 e3) = success := by
  have h : Agreeing app [e1, e2] [atTime 17 e1, atTime 40000 e2] :=
    .snoc [e1] [atTime 17 e1] e2 40000 (.snoc [] [] e1 17 .nil rfl) rfl
  exact ⟨h, ((C104_ages_only h).2 e3 60001 rfl).trans reply3⟩

theorem C104_instance_earlier :
    reply app [e1, e2, e3] (atTime 6000 e4) = success :=
  (C104_earlier (by decide)).2 reply4

/-- The registration of Ada, after more than a minute. -/
def late : Event := .registrationResponse (formOf "1" (regCredential challenge1) "ada") 70000

theorem reply_late : reply app [e1, e2] late = .text "Timeout" 408 ∧
    run app ([e1, e2] ++ [late]) = run app [e1, e2] := by
  obtain ⟨cid, text, d, h1, h2, h3, h4, h5, h6⟩ := form1 (regCredential challenge1) "ada"
  refine C64_reply_only (.registrationUnread _ _ _ (.late cid (regCredential challenge1)
    ⟨1, challenge1, 0, 1⟩ ⟨1, "ada", handle1⟩ ⟨text, d, h1, h3, h4, h5, h6⟩ ⟨_, _, rfl⟩ ?_ h2 ?_ ?_))
    (fun v => by simp)
  · rw [run2]; simp
  · rw [run2]; simp
  · decide

theorem C104_instance_late : reply app [e1, e2] late = .text "Timeout" 408 ∧ ClockForward [e1, e2, late] :=
  ⟨reply_late.1, by
    simp only [ClockForward, List.pairwise_cons, List.mem_cons, List.not_mem_nil, or_false, forall_eq_or_imp,
      forall_eq, e1, e2, late]
    refine ⟨⟨?_, ?_⟩, ?_, fun _ h => h.elim, .nil⟩ <;> rintro t t' ⟨⟩ ⟨⟩ <;> decide⟩

theorem set_back_of {app : App} {pre : List Event} {f : Form} {t t' : Int} {n : Nat} {c : Credential}
    {name : String} (hs : Submits app f n c name)
    (h1 : reply app pre (.registrationResponse f t) = .text "Timeout" 408 ∧
      run app (pre ++ [.registrationResponse f t]) = run app pre)
    (h2 : reply app pre (.registrationResponse f t') = success) :
    ¬ StaysOld (reply app) app fun _ => True := by
  intro h
  refine h pre (.registrationResponse f t) [] (.registrationResponse f t') f t t' n c c name name trivial
    (Or.inl rfl) hs h1.1 ⟨?_, f, Or.inl rfl, hs⟩
  rw [reply, h1.2]
  exact h2

/-- **C104** The clock is set back, and the challenge that was found too old is good again. -/
theorem C104_set_back_refuted : ∃ app : App, ¬ StaysOld (reply app) app fun _ => True :=
  ⟨app, set_back_of (form1 (regCredential challenge1) "ada") reply_late reply3⟩

/-- With the marks it is not. -/
theorem C104_instance_expired : expiredReply app [e1, e2] late = .text "Timeout" 408 ∧
    expiredReply app [e1, e2, late] e3 ≠ success := by
  have h1 : expiredReply app [e1, e2] late = .text "Timeout" 408 :=
    (C104_expired_forward C104_instance_late.2).1.trans reply_late.1
  exact ⟨h1, fun h => C104_expired app [e1, e2] late [] e3 _ 70000 5000 1 _ _ _ _ trivial (Or.inl rfl)
    (form1 _ _) h1 ⟨h, _, Or.inl rfl, form1 _ _⟩⟩

end WebAuthn.Flask.Run
