import Mathlib.Data.List.Forall2
import Verif.Model.Py

/-!
# The exception monad
-/

namespace WebAuthn

section Monad
variable {α β : Type}

theorem bind_ok_iff {x : Py α} {f : α → Py β} {b : β} :
    (x >>= f) = .ok b ↔ ∃ a, x = .ok a ∧ f a = .ok b := by
  cases x with
  | error e => simp [bind, Except.bind]
  | ok a => simp [bind, Except.bind]

theorem bind_error_iff {x : Py α} {f : α → Py β} {e : Exc} :
    (x >>= f) = .error e ↔ x = .error e ∨ ∃ a, x = .ok a ∧ f a = .error e := by
  cases x with
  | error e => simp [bind, Except.bind]
  | ok a => simp [bind, Except.bind]

@[simp] theorem ok_bind {a : α} {f : α → Py β} : ((Except.ok a : Py α) >>= f) = f a := rfl
@[simp] theorem error_bind {e : Exc} {f : α → Py β} :
    ((Except.error e : Py α) >>= f) = .error e := rfl
theorem pure_eq_ok {a : α} : (pure a : Py α) = .ok a := rfl

theorem raise_eq {e : LibErr} : (raise e : Py α) = .error (.lib e) := rfl

theorem require_ok_iff {b : Bool} {e : LibErr} {u : Unit} : require b e = .ok u ↔ b = true := by
  cases b <;> simp [require, raise]

theorem require_error_iff {b : Bool} {e : LibErr} {x : Exc} :
    require b e = .error x ↔ b = false ∧ x = .lib e := by
  cases b <;> simp [require, raise, eq_comm]

theorem pyAssert_ok_iff {b : Bool} {u : Unit} : pyAssert b = .ok u ↔ b = true := by
  cases b <;> simp [pyAssert]

theorem catching_ok_iff {m : Py α} {p : Exc → Bool} {h : LibErr} {a : α} :
    catching m p h = .ok a ↔ m = .ok a := by
  cases m with
  | ok => simp [catching]
  | error e => simp only [catching]; split <;> simp

theorem catching_error_iff {m : Py α} {p : Exc → Bool} {h : LibErr} {x : Exc} :
    catching m p h = .error x ↔
      ∃ e, m = .error e ∧ (p e = true ∧ x = .lib h ∨ p e = false ∧ x = e) := by
  cases m with
  | ok => simp [catching]
  | error e =>
    simp only [catching, Except.error.injEq, exists_eq_left']
    cases hp : p e
    · simp only [Bool.false_eq_true, if_false, false_and, true_and, false_or]
      exact ⟨fun h => (Except.error.inj h).symm, fun h => h ▸ rfl⟩
    · simp only [if_true, true_and, Bool.true_eq_false, false_and, or_false]
      exact ⟨fun h => (Except.error.inj h).symm, fun h => h ▸ rfl⟩

/-- `mapM` succeeds iff every element does. -/
theorem mapM_ok_iff {f : α → Py β} {l : List α} {r : List β} :
    l.mapM f = .ok r ↔ List.Forall₂ (fun a b => f a = .ok b) l r := by
  induction l generalizing r with
  | nil =>
    rw [List.mapM_nil, pure_eq_ok]
    cases r <;> simp
  | cons a l ih =>
    rw [List.mapM_cons]
    simp only [bind_ok_iff, ih, pure_eq_ok]
    constructor
    · rintro ⟨b, hb, bs, hbs, h⟩
      cases h
      exact .cons hb hbs
    · intro h
      cases h with
      | cons h1 h2 => exact ⟨_, h1, _, h2, rfl⟩

end Monad

end WebAuthn
