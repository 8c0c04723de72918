import Mathlib.Data.Fintype.BigOperators
import Mathlib.Algebra.Order.BigOperators.Ring.Finset
import Mathlib.Tactic.Ring
import Mathlib.Tactic.Positivity
import Mathlib.Tactic.FieldSimp
import Verif.Spec.Random

/-!
# Counting draws
-/

namespace WebAuthn.Flask

open WebAuthn WebAuthn.Spec

/-- A coin of the list hits what is forbidden after the coins before it. -/
def Hit {C : Type} (bad : List C → C → Prop) (l : List C) : Prop :=
  ∃ pre c post, l = pre ++ c :: post ∧ bad pre c

theorem hit_nil {C : Type} {bad : List C → C → Prop} : ¬ Hit bad [] := by
  rintro ⟨pre, c, post, h, -⟩
  simp at h

theorem hit_snoc {C : Type} {bad : List C → C → Prop} {l : List C} {c : C} :
    Hit bad (l ++ [c]) ↔ Hit bad l ∨ bad l c := by
  constructor
  · rintro ⟨pre, d, post, h, hb⟩
    rcases List.eq_nil_or_concat post with rfl | ⟨post, e, rfl⟩
    · obtain ⟨rfl, h'⟩ := List.append_inj' h rfl
      cases h'
      exact Or.inr hb
    · rw [List.concat_eq_append, ← List.cons_append, ← List.append_assoc] at h
      obtain ⟨rfl, -⟩ := List.append_inj' h rfl
      exact Or.inl ⟨pre, d, post, rfl, hb⟩
  · rintro (⟨pre, d, post, rfl, hb⟩ | h)
    · exact ⟨pre, d, post ++ [c], by simp, hb⟩
    · exact ⟨l, c, [], rfl, h⟩

theorem ofFn_snoc {C : Type} {q : Nat} (p : C × (Fin q → C)) :
    List.ofFn (Fin.snocEquiv (fun _ => C) p) = List.ofFn p.2 ++ [p.1] := by
  rw [List.ofFn_succ', List.concat_eq_append]
  simp [Fin.snocEquiv]

open Classical in
/-- If after every list of coins at most `k` of `R` next coins are forbidden, at most the
sum of the `k` of `R` sequences of coins hit. -/
theorem card_hit {C : Type} [Fintype C] (R : Nat) (k : Nat → Nat) (bad : List C → C → Prop) (q : Nat)
    (hb : ∀ l, l.length < q →
      (Finset.univ.filter (bad l)).card * R ≤ k l.length * Fintype.card C) :
    (Finset.univ.filter fun t : Fin q → C => Hit bad (List.ofFn t)).card * R ≤
      (∑ i ∈ Finset.range q, k i) * Fintype.card C ^ q := by
  induction q with
  | zero => simp [hit_nil]
  | succ q ih =>
    have ih := ih fun l hl => hb l (by omega)
    have e1 : (Finset.univ.filter fun t : Fin (q + 1) → C => Hit bad (List.ofFn t)).card =
        (Finset.univ.filter fun p : C × (Fin q → C) => Hit bad (List.ofFn p.2 ++ [p.1])).card := by
      rw [← Fintype.card_subtype, ← Fintype.card_subtype]
      refine (Fintype.card_congr ((Fin.snocEquiv fun _ => C).subtypeEquiv fun p => ?_)).symm
      rw [ofFn_snoc]
    have e2 : (Finset.univ.filter fun p : C × (Fin q → C) => Hit bad (List.ofFn p.2 ++ [p.1])).card ≤
        (Finset.univ.filter fun p : C × (Fin q → C) => Hit bad (List.ofFn p.2)).card +
        (Finset.univ.filter fun p : C × (Fin q → C) => bad (List.ofFn p.2) p.1).card := by
      refine le_trans (Finset.card_le_card ?_) (Finset.card_union_le _ _)
      intro p
      simp [hit_snoc]
    have e3 : (Finset.univ.filter fun p : C × (Fin q → C) => Hit bad (List.ofFn p.2)).card =
        Fintype.card C * (Finset.univ.filter fun t : Fin q → C => Hit bad (List.ofFn t)).card := by
      simp only [Finset.card_filter]
      rw [Fintype.sum_prod_type]
      simp
    have e4 : (Finset.univ.filter fun p : C × (Fin q → C) => bad (List.ofFn p.2) p.1).card =
        ∑ t : Fin q → C, (Finset.univ.filter (bad (List.ofFn t))).card := by
      simp only [Finset.card_filter]
      rw [Fintype.sum_prod_type_right]
    have e5 : (∑ t : Fin q → C, (Finset.univ.filter (bad (List.ofFn t))).card) * R ≤
        Fintype.card C ^ q * (k q * Fintype.card C) := by
      rw [Finset.sum_mul]
      refine le_trans (Finset.sum_le_sum fun t _ => hb (List.ofFn t) (by simp)) ?_
      simp
    rw [e1, Finset.sum_range_succ]
    calc _ ≤ (Fintype.card C * (Finset.univ.filter fun t : Fin q → C => Hit bad (List.ofFn t)).card +
          ∑ t : Fin q → C, (Finset.univ.filter (bad (List.ofFn t))).card) * R :=
          Nat.mul_le_mul_right _ (by rw [← e3, ← e4]; exact e2)
      _ = Fintype.card C * ((Finset.univ.filter fun t : Fin q → C => Hit bad (List.ofFn t)).card * R) +
          (∑ t : Fin q → C, (Finset.univ.filter (bad (List.ofFn t))).card) * R := by ring
      _ ≤ Fintype.card C * ((∑ i ∈ Finset.range q, k i) * Fintype.card C ^ q) +
          Fintype.card C ^ q * (k q * Fintype.card C) :=
          Nat.add_le_add (Nat.mul_le_mul_left _ ih) e5
      _ = _ := by ring

/-! ## Tokens -/

theorem token_bytes_injective : Function.Injective Token.bytes := by
  intro a b h
  have := List.ofFn_injective h
  funext i
  have := congrFun this i
  simpa using congrArg UInt8.toFin this

theorem card_token : Fintype.card Token = 256 ^ 64 := by
  rw [Fintype.card_pi]
  simp only [Fintype.card_fin, Finset.prod_const, Finset.card_univ]

theorem card_coin : Fintype.card Coin = 256 ^ 64 * 256 ^ 64 := by
  rw [Fintype.card_prod, card_token]

open Classical in
/-- At most as many tokens as there are byte strings in the list are in it. -/
theorem card_bytes_mem (l : List Bytes) :
    (Finset.univ.filter fun t : Token => t.bytes ∈ l).card ≤ l.length := by
  calc _ = ((Finset.univ.filter fun t : Token => t.bytes ∈ l).image Token.bytes).card :=
        (Finset.card_image_of_injective _ token_bytes_injective).symm
    _ ≤ l.toFinset.card := Finset.card_le_card fun b => by
        simp only [Finset.mem_image, Finset.mem_filter, Finset.mem_univ, true_and, List.mem_toFinset]
        rintro ⟨t, h, rfl⟩
        exact h
    _ ≤ l.length := List.toFinset_card_le l

/-- The coin repeats one of the byte strings. -/
def Repeats (handles challenges : List Coin → List Bytes) (l : List Coin) (c : Coin) : Prop :=
  c.1.bytes ∈ handles l ∨ c.2.bytes ∈ challenges l

/-- The probability that coins hit what is forbidden after the coins before. -/
theorem probability_hit {P : List Coin → Prop} {q : Nat} (k : Nat → Nat)
    (handles challenges : List Coin → List Bytes)
    (hk : ∀ l, l.length < q → (handles l).length + (challenges l).length ≤ k l.length)
    (hP : ∀ l, l.length = q → P l →
      Hit (Repeats handles challenges) l) :
    probability q P ≤ (∑ i ∈ Finset.range q, k i : Nat) / 256 ^ 64 := by
  classical
  have card_token := card_token
  have card_coin := card_coin
  have hpos : 0 < Fintype.card Coin ^ q := by
    rw [card_coin]
    positivity
  have hR : (0 : ℚ) < 256 ^ 64 := by positivity
  have hcast : ((256 ^ 64 : Nat) : ℚ) = 256 ^ 64 := by push_cast; rfl
  rw [← hcast] at hR ⊢
  generalize 256 ^ 64 = R at *
  have h := card_hit R k (Repeats handles challenges) q (by
      intro l hl
      rw [card_coin]
      have e : (Finset.univ.filter (Repeats handles challenges l)).card ≤
          (handles l).length * R + R * (challenges l).length := by
        have e' : Finset.univ.filter (Repeats handles challenges l) =
            (Finset.univ.filter fun c : Coin => c.1.bytes ∈ handles l) ∪
            Finset.univ.filter fun c : Coin => c.2.bytes ∈ challenges l := by
          ext c
          simp [Repeats]
        rw [e']
        refine le_trans (Finset.card_union_le _ _) (Nat.add_le_add ?_ ?_)
        · have : (Finset.univ.filter fun c : Coin => c.1.bytes ∈ handles l) =
              (Finset.univ.filter fun t : Token => t.bytes ∈ handles l) ×ˢ Finset.univ := by
            ext c
            simp
          rw [this, Finset.card_product, Finset.card_univ, card_token]
          exact Nat.mul_le_mul_right _ (card_bytes_mem _)
        · have : (Finset.univ.filter fun c : Coin => c.2.bytes ∈ challenges l) =
              Finset.univ ×ˢ (Finset.univ.filter fun t : Token => t.bytes ∈ challenges l) := by
            ext c
            simp
          rw [this, Finset.card_product, Finset.card_univ, card_token]
          exact Nat.mul_le_mul_left _ (card_bytes_mem _)
      calc _ ≤ ((handles l).length * R + R * (challenges l).length) * R :=
            Nat.mul_le_mul_right _ e
        _ = ((handles l).length + (challenges l).length) * (R * R) := by
            ring
        _ ≤ _ := Nat.mul_le_mul_right _ (hk l hl))
  have hle : Nat.card { t : Fin q → Coin // P (List.ofFn t) } ≤
      (Finset.univ.filter fun t : Fin q → Coin =>
        Hit (Repeats handles challenges) (List.ofFn t)).card := by
    rw [Nat.card_eq_fintype_card, Fintype.card_subtype]
    refine Finset.card_le_card fun t => ?_
    simp only [Finset.mem_filter, Finset.mem_univ, true_and]
    exact hP _ (by simp)
  have h := le_trans (Nat.mul_le_mul_right _ hle) h
  have hc : Nat.card (Fin q → Coin) = Fintype.card Coin ^ q := by
    rw [Nat.card_eq_fintype_card, Fintype.card_fun, Fintype.card_fin]
  rw [probability, hc, div_le_div_iff₀ (by exact_mod_cast hpos) hR]
  exact_mod_cast h

end WebAuthn.Flask
