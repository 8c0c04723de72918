import Verif.Spec.Basic
import Mathlib.Tactic.Linarith
import Mathlib.Tactic.Ring

/-!
# The integers that floats are equal to
-/

namespace WebAuthn

open Spec

theorem dvd_pow_iff {sig e q : Nat} (h0 : e ≠ 0) :
    sig * 2 ^ (e - 1) = q * 2 ^ 1074 ↔
      if 1075 ≤ e then sig * 2 ^ (e - 1075) = q
      else sig % 2 ^ (1075 - e) = 0 ∧ sig / 2 ^ (1075 - e) = q := by
  split
  · next h =>
    rw [show e - 1 = (e - 1075) + 1074 by omega, pow_add, ← Nat.mul_assoc]
    exact Nat.mul_left_inj (by positivity)
  · next h =>
    rw [show (1074 : Nat) = (1075 - e) + (e - 1) by omega, pow_add _ (1075 - e), ← Nat.mul_assoc,
      Nat.mul_left_inj (by positivity)]
    have hp : 0 < 2 ^ (1075 - e) := by positivity
    constructor
    · rintro rfl
      exact ⟨Nat.mul_mod_left _ _, Nat.mul_div_cancel _ hp⟩
    · rintro ⟨h1, rfl⟩
      exact (Nat.div_mul_cancel (Nat.dvd_of_mod_eq_zero h1)).symm

theorem pow_lt {a b : Nat} (h : a < b) : 2 ^ a < 2 ^ b := Nat.pow_lt_pow_right one_lt_two h

theorem int_pow (k : Nat) : (2 : Int) ^ k = ((2 ^ k : Nat) : Int) := by push_cast; rfl

theorem toInt?_iff {f : PyFloat} {n : Int} : f.toInt? = some n ↔ FloatIs f n := by
  unfold PyFloat.toInt? FloatIs scaled
  generalize f.bits.toNat = b
  dsimp only
  generalize b / 2 ^ 52 % 2 ^ 11 = e
  have hm : b % 2 ^ 52 < 2 ^ 52 := Nat.mod_lt _ (by decide)
  generalize b % 2 ^ 52 = m at hm
  generalize hs : (if b / 2 ^ 63 = 1 then (-1 : Int) else 1) = s
  have hs' : s = 1 ∨ s = -1 := by rw [← hs]; split <;> simp
  clear hs
  have big : (2 : Nat) ^ 52 < 2 ^ 1074 := pow_lt (by decide)
  have split_sign : ∀ A : Nat, s * (A : Int) = n * 2 ^ 1074 ↔
      ∃ q : Nat, A = q * 2 ^ 1074 ∧ s * (q : Int) = n := by
    intro A
    have pos : (0 : Int) < 2 ^ 1074 := by positivity
    have hP : (2 : Int) ^ 1074 = ((2 ^ 1074 : Nat) : Int) := int_pow _
    generalize (2 : Int) ^ 1074 = P at *
    generalize 2 ^ 1074 = N at *
    subst hP
    constructor
    · intro h
      have h2 : (A : Int) = s * n * N := by
        rcases hs' with rfl | rfl <;> linarith
      have h3 : 0 ≤ s * n := by
        by_contra hneg
        have : s * n * N < 0 := Int.mul_neg_of_neg_of_pos (by omega) pos
        omega
      obtain ⟨q, hq⟩ := Int.eq_ofNat_of_zero_le h3
      refine ⟨q, ?_, ?_⟩
      · rw [hq] at h2
        exact_mod_cast h2
      · rw [← hq]
        rcases hs' with rfl | rfl <;> simp
    · rintro ⟨q, rfl, rfl⟩
      push_cast
      ring
  rw [split_sign]
  clear split_sign
  by_cases h1 : e = 2047
  · rw [if_pos h1]
    exact ⟨nofun, fun h => absurd h1 h.1⟩
  rw [if_neg h1]
  simp only [ne_eq, h1, not_false_eq_true, true_and]
  by_cases h0 : e = 0
  · simp only [h0, if_true]
    have hq : ∀ q, m = q * 2 ^ 1074 ↔ m = 0 ∧ q = 0 := by
      intro q
      generalize 2 ^ 1074 = P at big
      constructor
      · rintro rfl
        rcases Nat.eq_zero_or_pos q with rfl | hq
        · simp
        · have := Nat.le_mul_of_pos_left P hq
          omega
      · rintro ⟨rfl, rfl⟩; simp
    simp only [hq]
    split
    · next h => simp [h, eq_comm]
    · next h => simp [h]
  · simp only [if_neg h0, dvd_pow_iff h0]
    split
    · simp
    · split
      · next h => simp [h]
      · next h => simp [h]

end WebAuthn
