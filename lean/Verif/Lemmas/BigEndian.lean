import Mathlib.Data.List.Induction
import Verif.Spec.Data

/-!
# Big-endian numbers
-/

namespace WebAuthn

open Spec

theorem beNat_snoc (b : Bytes) (x : UInt8) : beNat (b ++ [x]) = 256 * beNat b + x.toNat := by
  simp [beNat, Nat.mul_comm]

theorem bigEndian_beNat (b : Bytes) : BigEndian b (beNat b) := by
  induction b using List.reverseRecOn with
  | nil => exact .nil
  | append_singleton b x ih => rw [beNat_snoc]; exact .snoc _ _ _ ih

theorem bigEndian_iff {b : Bytes} {n : Nat} : BigEndian b n ↔ n = beNat b := by
  constructor
  · intro h
    induction h with
    | nil => rfl
    | snoc b n x _ ih => rw [beNat_snoc, ih]
  · rintro rfl; exact bigEndian_beNat b

theorem beNat_lt (b : Bytes) : beNat b < 256 ^ b.length := by
  induction b using List.reverseRecOn with
  | nil => simp [beNat]
  | append_singleton b x ih =>
    rw [beNat_snoc]
    have := x.toNat_lt
    simp only [List.length_append, List.length_singleton, Nat.pow_succ]
    omega

end WebAuthn
