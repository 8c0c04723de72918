import Verif.Spec.PageFlow

/-!
# The variables and the status texts of the page
-/

namespace WebAuthn.Flask.Page

open WebAuthn WebAuthn.Spec

variable {w : World}

/-! ## The variables of the page -/

theorem slots_set_self (g : Globals) (b : Button) (s : Slots) : (g.set b s).slots b = s := by
  cases b <;> rfl

theorem slots_set_ne {g : Globals} {b b' : Button} {s : Slots} (h : b ≠ b') :
    (g.set b s).slots b' = g.slots b' := by
  cases b <;> cases b' <;> first | rfl | exact absurd rfl h

theorem slots_say (g : Globals) (b : Button) (s : String) : (g.say s).slots b = g.slots b := by
  cases b <;> rfl

theorem status_set (g : Globals) (b : Button) (s : Slots) : (g.set b s).status = g.status := by
  cases b <;> rfl

/-! ## The status texts -/

theorem askingText_register (n : String) : askingText .register n = "Registering username " ++ n ++ "." := rfl

theorem askingText_authenticate (n : String) :
    askingText .authenticate n = "Requesting authentication for username " ++ n ++ "." := rfl

theorem submittingText_register (n : String) : submittingText .register n = "Attesting credential for " ++ n ++ "." := rfl

theorem submittingText_authenticate (n : String) :
    submittingText .authenticate n = "Asserting credential for " ++ n := rfl

theorem successText_register (n : String) : successText .register n = "Successfully registered credential for " ++ n ++ "!" := rfl

theorem successText_authenticate (n : String) :
    successText .authenticate n = "Successfully authorized username " ++ n ++ "!" := rfl

theorem failureText_register (n : String) : failureText .register n = "Failed to register credential for " ++ n ++ "..." := rfl

theorem failureText_authenticate (n : String) :
    failureText .authenticate n = "Failed to authorize username " ++ n ++ "..." := rfl

/-- The text tells a success. -/
def Telling (s : String) (b : Button) (name : String) : Prop :=
  match b with
  | .register => s = "Successfully registered credential for " ++ name ++ "!"
  | .authenticate => s = "Successfully authorized username " ++ name ++ "!"

theorem telling_iff {b : Button} {name : String} : Tells w b name ↔ Telling w.page.status b name := by
  cases b <;> exact Iff.rfl

theorem text_ne {p q s t : List Char} (n : Nat) (hp : n < p.length) (hq : n < q.length)
    (h : p[n]? ≠ q[n]?) : p ++ s ≠ q ++ t := by
  intro e
  have := congrArg (fun x : List Char => x[n]?) e
  simp only [List.getElem?_append_left hp, List.getElem?_append_left hq] at this
  exact h this

theorem telling_register {s : String} {name : String} (h : Telling s .register name) :
    s.toList = "Successfully registered credential for ".toList ++ (name.toList ++ "!".toList) := by
  rw [show s = _ from h]
  simp only [String.toList_append, List.append_assoc]

theorem telling_authenticate {s : String} {name : String} (h : Telling s .authenticate name) :
    s.toList = "Successfully authorized username ".toList ++ (name.toList ++ "!".toList) := by
  rw [show s = _ from h]
  simp only [String.toList_append, List.append_assoc]

theorem not_telling {s : String} {q t : List Char} {b : Button} {name : String}
    (hs : s.toList = q ++ t) (hq : 0 < q.length) (h : q[0]? ≠ some 'S') : ¬ Telling s b name := by
  intro hb
  cases b with
  | register =>
    rw [telling_register hb] at hs
    exact text_ne 0 (by decide) hq (by intro e; exact h (e.symm.trans (by decide))) hs
  | authenticate =>
    rw [telling_authenticate hb] at hs
    exact text_ne 0 (by decide) hq (by intro e; exact h (e.symm.trans (by decide))) hs

theorem telling_success {b b' : Button} {n n' : String} :
    Telling (successText b n) b' n' ↔ b = b' ∧ n = n' := by
  constructor
  · intro h
    cases b <;> cases b'
    · have h := telling_register h
      simp only [successText_register, String.toList_append, List.append_assoc] at h
      exact ⟨rfl, String.toList_inj.mp (List.append_cancel_right (List.append_cancel_left h))⟩
    · have h := telling_authenticate h
      simp only [successText_register, String.toList_append, List.append_assoc] at h
      exact absurd h (text_ne 13 (by decide) (by decide) (by decide))
    · have h := telling_register h
      simp only [successText_authenticate, String.toList_append, List.append_assoc] at h
      exact absurd h (text_ne 13 (by decide) (by decide) (by decide))
    · have h := telling_authenticate h
      simp only [successText_authenticate, String.toList_append, List.append_assoc] at h
      exact ⟨rfl, String.toList_inj.mp (List.append_cancel_right (List.append_cancel_left h))⟩
  · rintro ⟨rfl, rfl⟩
    cases b <;> rfl

theorem asking_silent {b b' : Button} {n n' : String} : ¬ Telling (askingText b n) b' n' := by
  cases b
  · exact not_telling (q := "Registering username ".toList) (t := n.toList ++ ".".toList)
      (by simp only [askingText_register, String.toList_append, List.append_assoc]) (by decide) (by decide)
  · exact not_telling (q := "Requesting authentication for username ".toList) (t := n.toList ++ ".".toList)
      (by simp only [askingText_authenticate, String.toList_append, List.append_assoc]) (by decide) (by decide)

theorem vain_silent {b b' : Button} {n' : String} : ¬ Telling (askedInVain b) b' n' := by
  cases b
  · exact not_telling (q := "Failed".toList) (t := " to register username...could already be registered.".toList)
      (by decide) (by decide) (by decide)
  · exact not_telling (q := "Failed".toList) (t := " to request authentication...".toList)
      (by decide) (by decide) (by decide)

theorem submitting_silent {b b' : Button} {n n' : String} : ¬ Telling (submittingText b n) b' n' := by
  cases b
  · exact not_telling (q := "Attesting credential for ".toList) (t := n.toList ++ ".".toList)
      (by simp only [submittingText_register, String.toList_append, List.append_assoc]) (by decide) (by decide)
  · exact not_telling (q := "Asserting credential for ".toList) (t := n.toList)
      (by simp only [submittingText_authenticate, String.toList_append]) (by decide) (by decide)

theorem failure_silent {b b' : Button} {n n' : String} : ¬ Telling (failureText b n) b' n' := by
  cases b
  · exact not_telling (q := "Failed to register credential for ".toList) (t := n.toList ++ "...".toList)
      (by simp only [failureText_register, String.toList_append, List.append_assoc]) (by decide) (by decide)
  · exact not_telling (q := "Failed to authorize username ".toList) (t := n.toList ++ "...".toList)
      (by simp only [failureText_authenticate, String.toList_append, List.append_assoc]) (by decide) (by decide)

theorem creating_silent {b' : Button} {n n' : String} :
    ¬ Telling ("Creating credential for " ++ n ++ ".") b' n' :=
  not_telling (q := "Creating credential for ".toList) (t := n.toList ++ ".".toList)
    (by simp only [String.toList_append, List.append_assoc]) (by decide) (by decide)

theorem empty_silent {b' : Button} {n' : String} : ¬ Telling "" b' n' := by
  intro h
  cases b'
  · have h := telling_register h
    simp at h
  · have h := telling_authenticate h
    simp at h

end WebAuthn.Flask.Page
