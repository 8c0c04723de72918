import Verif.Model.Page
import Verif.Lemmas.JsonText

/-!
# The texts that the page of the example makes are JSON
-/

namespace WebAuthn.Flask.Page

open WebAuthn WebAuthn.Spec WebAuthn.Spec.JsonGrammar

theorem isChar_quote (c : Char) : IsChar (quoteChar c) c := by
  have hex_spec : ∀ n < 16, HexDigit (hex n) n := by
    have : ∀ n < 16, "0123456789abcdef".toList[n]? = some (hex n) := by decide
    exact fun n h => Or.inl (this n h)
  unfold quoteChar
  split_ifs with h1 h2 h3 h4 h5 h6 h7 h8
  · subst h1; exact .escape _ _ (by decide)
  · subst h2; exact .escape _ _ (by decide)
  · subst h3; exact .escape _ _ (by decide)
  · subst h4; exact .escape _ _ (by decide)
  · subst h5; exact .escape _ _ (by decide)
  · subst h6; exact .escape _ _ (by decide)
  · subst h7; exact .escape _ _ (by decide)
  · exact isChar_code (hex_spec _ (by omega)) (hex_spec _ (by omega))
  · exact .plain c (by omega) h6 h7

theorem isString_quote (s : String) : IsString (quote s) s := isString_of isChar_quote s

theorem isValue_quote (n : Nat) (s : String) : IsValue n (quote s) (.str s) :=
  isValue_scalar (.str _ _ (isString_quote s))

/-- Texts of members. -/
abbrev Texts (n : Nat) : List (String × List Char) → List (String × PyVal) → Prop :=
  List.Forall₂ fun m v => m.1 = v.1 ∧ IsValue n m.2 v.2

theorem isMembers_members {n : Nat} {ms : List (String × List Char)} {vs : List (String × PyVal)}
    (h : Texts n ms vs) (hne : ms ≠ []) : IsMembers (IsValue n) (members ms) vs := by
  induction h with
  | nil => exact absurd rfl hne
  | @cons m v ms vs hm h ih =>
    obtain ⟨k, t⟩ := m
    obtain ⟨k', v⟩ := v
    obtain ⟨rfl, hm⟩ : k = k' ∧ _ := hm
    cases h with
    | nil => exact isMembers_last (isString_quote k) hm
    | cons hm' h' => exact isMembers_cons (isString_quote k) hm (ih (by simp))

theorem isValue_object {n : Nat} {ms : List (String × List Char)} {vs : List (String × PyVal)}
    (h : Texts n ms vs) (hd : (vs.map Prod.fst).Nodup) :
    IsValue (n + 1) (object ms) (.dict (dictOf vs)) := by
  cases h with
  | nil => exact Or.inr (Or.inr (Or.inl ⟨[], by simp [Space], rfl, rfl⟩))
  | cons hm h => exact WebAuthn.isValue_object (isMembers_members (.cons hm h) (by simp)) hd

theorem texts_quote (n : Nat) (ms : List (String × String)) :
    Texts n (ms.map fun m => (m.1, quote m.2)) (ms.map fun m => (m.1, .str m.2)) := by
  induction ms with
  | nil => exact .nil
  | cons m ms ih => exact .cons ⟨rfl, isValue_quote _ _⟩ ih

/-- `JSON.stringify` makes JSON. -/
theorem jsonText_stringify {j : CredJSON} (hd : (j.response.map Prod.fst).Nodup) :
    JsonText (stringify j) (.dict [(.str "type", .str j.type), (.str "id", .str j.id),
      (.str "rawId", .str j.rawId),
      (.str "response", .dict (j.response.map fun m => (.str m.1, .str m.2)))]) := by
  have h := isValue_object (n := 98) (texts_quote 98 j.response) (by
    rw [List.map_map]
    exact hd)
  have e : dictOf (j.response.map fun m => (m.1, PyVal.str m.2)) =
      j.response.map fun m => (PyVal.str m.1, PyVal.str m.2) := by
    simp [dictOf]
  rw [e] at h
  exact jsonText_of (isValue_object (n := 99) (vs := [("type", .str j.type), ("id", .str j.id),
    ("rawId", .str j.rawId), ("response", _)])
    (.cons ⟨rfl, isValue_quote _ _⟩ (.cons ⟨rfl, isValue_quote _ _⟩ (.cons ⟨rfl, isValue_quote _ _⟩
      (.cons ⟨rfl, h⟩ .nil)))) (by simp))

end WebAuthn.Flask.Page
