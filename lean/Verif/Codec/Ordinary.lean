import Verif.Codec.Cbor
import Verif.Codec.Json
import Verif.Lemmas.Errors

/-!
# The exceptions of the two codecs
-/

namespace WebAuthn

namespace Cbor

/-- A decoding error. -/
abbrev IsDecode (e : Exc) : Prop := e.isCborDecodeError = true

theorem raises_take (n : Nat) (b : Bytes) : Raises (take n b) IsDecode := by
  unfold take
  split_ifs
  · exact raises_ok _
  · exact raises_error rfl

theorem raises_decHead (b : Bytes) : Raises (decHead b) IsDecode := by
  unfold decHead
  split
  · exact raises_error rfl
  · simp only
    split_ifs
    · exact raises_ok _
    · exact raises_bind (raises_take _ _) fun _ => raises_pure _
    · exact raises_error rfl

theorem raises_many {α : Type} {d : Bytes → Py (α × Bytes)} (hd : ∀ b, Raises (d b) IsDecode)
    (n : Nat) (b : Bytes) : Raises (many d n b) IsDecode := by
  induction n generalizing b with
  | zero => exact raises_ok _
  | succ n ih =>
    exact raises_bind (hd _) fun _ => raises_bind (ih _) fun _ => raises_pure _

theorem raises_pair {α : Type} {d : Bytes → Py (α × Bytes)} (hd : ∀ b, Raises (d b) IsDecode)
    (b : Bytes) : Raises (pair d b) IsDecode :=
  raises_bind (hd _) fun _ => raises_bind (hd _) fun _ => raises_pure _

theorem raises_payload {d : Bytes → Py (PyVal × Bytes)} (hd : ∀ b, Raises (d b) IsDecode)
    (h : Nat × Nat × Nat) (b : Bytes) : Raises (payload d h b) IsDecode := by
  unfold payload
  split
  · exact raises_ok _
  · exact raises_ok _
  · exact raises_bind (raises_take _ _) fun _ => raises_pure _
  · refine raises_bind (raises_take _ _) fun r => ?_
    obtain ⟨x, b⟩ := r
    simp only
    split
    · exact raises_pure _
    · exact raises_error rfl
  · exact raises_bind (raises_many hd _ _) fun _ => raises_pure _
  · exact raises_bind (raises_many (raises_pair hd) _ _) fun _ => raises_pure _
  · exact raises_ok _
  · exact raises_ok _
  · exact raises_ok _
  · exact raises_ok _
  · exact raises_error rfl

theorem raises_dec (n : Nat) (b : Bytes) : Raises (dec n b) IsDecode := by
  induction n generalizing b with
  | zero => exact raises_error rfl
  | succ n ih => exact raises_bind (raises_decHead b) fun _ => raises_payload ih _ _

theorem raises_load (b : Bytes) : Raises (load b) IsDecode := raises_dec _ b

end Cbor

namespace Json

/-- A decoding error. -/
abbrev IsDecode (e : Exc) : Prop := e = .jsonDecodeError

theorem raises_str (cs acc : List Char) : Raises (str cs acc) IsDecode := by
  fun_induction str cs acc with
  | case1 => exact raises_ok _
  | case2 => exact raises_error rfl
  | case3 => assumption
  | case4 => exact raises_error rfl
  | case5 => assumption
  | case6 => exact raises_error rfl
  | case7 => exact raises_error rfl
  | case8 => assumption
  | case9 => exact raises_error rfl

theorem raises_members {v : List Char → Py (PyVal × List Char)} (hv : ∀ cs, Raises (v cs) IsDecode)
    (n : Nat) (cs : List Char) (d : Dict) : Raises (members v n cs d) IsDecode := by
  induction n generalizing cs d with
  | zero => exact raises_error rfl
  | succ n ih =>
    unfold members
    split
    · refine raises_bind (raises_str _ _) fun r => ?_
      obtain ⟨k, cs⟩ := r
      simp only
      split
      · refine raises_bind (hv _) fun r => ?_
        obtain ⟨k, cs⟩ := r
        simp only
        split
        · exact ih _ _
        · exact raises_pure _
        · exact raises_error rfl
      · exact raises_error rfl
    · exact raises_error rfl

theorem raises_elements {v : List Char → Py (PyVal × List Char)}
    (hv : ∀ cs, Raises (v cs) IsDecode) (n : Nat) (cs : List Char) (l : List PyVal) :
    Raises (elements v n cs l) IsDecode := by
  induction n generalizing cs l with
  | zero => exact raises_error rfl
  | succ n ih =>
    unfold elements
    refine raises_bind (hv _) fun r => ?_
    obtain ⟨k, cs⟩ := r
    simp only
    split
    · exact ih _ _
    · exact raises_pure _
    · exact raises_error rfl

theorem raises_number (neg : Bool) (cs : List Char) : Raises (number neg cs) IsDecode := by
  unfold number
  split
  · exact raises_error rfl
  · rename_i c cs
    split
    · simp only
      generalize (if c = '0' then (0, cs) else digits cs (c.toNat - 48) : Nat × List Char) = p
      obtain ⟨n, r⟩ := p
      simp only
      split <;> first | exact raises_error rfl | exact raises_ok _
    · exact raises_error rfl

theorem raises_value (n : Nat) (cs : List Char) : Raises (value n cs) IsDecode := by
  induction n generalizing cs with
  | zero => exact raises_error rfl
  | succ n ih =>
    unfold value
    split
    · exact raises_bind (raises_str _ _) fun _ => raises_pure _
    · split
      · exact raises_ok _
      · exact raises_bind (raises_members ih _ _ _) fun _ => raises_pure _
    · split
      · exact raises_ok _
      · exact raises_bind (raises_elements ih _ _ _) fun _ => raises_pure _
    · exact raises_ok _
    · exact raises_ok _
    · exact raises_ok _
    · exact raises_number _ _
    · exact raises_number _ _

theorem raises_loads (t : String) : Raises (loads t) IsDecode := by
  unfold loads
  refine raises_bind (raises_value _ _) fun r => ?_
  obtain ⟨v, cs⟩ := r
  simp only
  split
  · exact raises_pure _
  · exact raises_error rfl

end Json

end WebAuthn
