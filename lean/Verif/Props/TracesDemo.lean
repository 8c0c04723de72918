import Verif.Props.Traces
import Verif.Props.RetryDemo

/-!
# A concrete run with a request that is refused (C113)
-/

namespace WebAuthn.Flask

open WebAuthn WebAuthn.Spec WebAuthn.Props

namespace Run

/-- Carol, whom nobody knows, wants to log in. -/
def carol : Event := .authenticationRequest (some "carol") challenge2 1500

theorem served1 : Obtained (reply app [] e1) := by
  obtain ⟨⟨key, v, h⟩, -⟩ := RetryDemo.issued
  exact Or.inl ⟨_, h⟩

theorem served2 : Obtained (reply app [e1] e2) := by
  obtain ⟨v, hv, -⟩ := creation_reply 2 { name := "bob", id := handle2, displayName := "bob" } challenge2
  have h : reply app [e1] e2 = .json (.dict [(.str "challengeID", .int 2), (.str "creationOptions", v)]) := Eq.trans rfl hv
  exact Or.inl ⟨_, h⟩

theorem carol_refused : ¬ Obtained (reply app [e1, e2] carol) := by
  have h : reply app [e1, e2] carol = .text "User not registered" 400 := rfl
  rw [h]
  rintro (⟨v, h⟩ | h)
  · cases h
  · injection h with h
    revert h
    decide

theorem new_challenges : NewChallenges (reply app) [e1, e2, carol] := by
  rintro pre name h ch t ⟨post, ho⟩ pre' e n t' name' ⟨post', rfl⟩ ⟨-, hi⟩
  rcases pre' with _ | ⟨a, _ | ⟨b, pre'⟩⟩
  · simp only [List.nil_append, List.cons_append, List.cons.injEq] at ho
    obtain ⟨rfl, ho⟩ := ho
    have hc : challenge1 = ch := by
      rcases hi with ⟨_, hi⟩ | hi
      · injection hi
      · cases hi
    rcases post' with _ | ⟨a, _ | ⟨b, post'⟩⟩
    · simp only [List.nil_append, List.cons.injEq] at ho
      obtain ⟨ho, -⟩ := ho
      injection ho with _ _ ho
      rw [← hc] at ho
      exact absurd (congrArg List.head? ho) (by decide)
    · simp [carol] at ho
    · simp at ho
  · simp only [List.cons_append, List.nil_append, List.cons.injEq] at ho
    obtain ⟨-, rfl, ho⟩ := ho
    rcases post' with _ | ⟨a, post'⟩
    · simp [carol] at ho
    · simp at ho
  · have := congrArg List.length ho
    simp at this
    omega

/-- Ada registers as if Carol had not tried (an instance of `C113_partial`). -/
example : reply app [e1, e2, carol] e3 = success :=
  ((C113_partial (kept := [e1, e2]) new_challenges (.refused (evs := [e1, e2])
    (.served (evs := [e1]) (kept := [e1]) (.served (evs := []) (kept := []) .nil served1) served2) carol_refused)).2 e3).trans
    reply3

end Run

end WebAuthn.Flask
