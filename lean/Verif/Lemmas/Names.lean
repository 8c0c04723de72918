import Verif.Model.Jsonify
import Verif.Spec.Names

namespace WebAuthn

open WebAuthn.Spec

set_option maxRecDepth 16000 in
theorem letter_table : ∀ n < 128, toUpper (Char.ofNat n) = upper (Char.ofNat n) ∧
    toLower (Char.ofNat n) = lower (Char.ofNat n) ∧
    (isUpper (Char.ofNat n) = true ↔ Char.ofNat n ∈ upperLetters) := by decide

theorem lookup_none {α β : Type} [BEq α] [LawfulBEq α] {l : List (α × β)} {a : α}
    (h : ∀ p ∈ l, p.1 ≠ a) : l.lookup a = none := by
  induction l with
  | nil => rfl
  | cons p l ih =>
    have : (a == p.1) = false := by
      rw [beq_eq_false_iff_ne]
      exact fun e => h p (List.mem_cons_self ..) e.symm
    rw [List.lookup_cons, this]
    exact ih fun q hq => h q (List.mem_cons_of_mem _ hq)

theorem letters (c : Char) : toUpper c = upper c ∧ toLower c = lower c ∧
    (isUpper c = true ↔ c ∈ upperLetters) := by
  by_cases hc : c.toNat < 128
  · have := letter_table c.toNat hc
    rwa [Char.ofNat_toNat] at this
  · have t1 : ∀ p ∈ lowerLetters.zip upperLetters, p.1.toNat < 128 := by decide
    have t2 : ∀ p ∈ upperLetters.zip lowerLetters, p.1.toNat < 128 := by decide
    have t3 : ∀ x ∈ upperLetters, x.toNat < 128 := by decide
    have h1 : isLower c = false := by
      simp only [isLower, Bool.and_eq_false_iff, decide_eq_false_iff_not]
      right
      intro h
      have : c.toNat ≤ 'z'.toNat := h
      have : 'z'.toNat = 122 := rfl
      omega
    have h2 : isUpper c = false := by
      simp only [isUpper, Bool.and_eq_false_iff, decide_eq_false_iff_not]
      right
      intro h
      have : c.toNat ≤ 'Z'.toNat := h
      have : 'Z'.toNat = 90 := rfl
      omega
    have h3 : c ∉ upperLetters := fun h => hc (t3 c h)
    refine ⟨?_, ?_, by simp [h2, h3]⟩
    · simp only [toUpper, h1, upper]
      rw [lookup_none (a := c) fun p hp e => hc (e ▸ t1 p hp)]
      rfl
    · simp only [toLower, h2, lower]
      rw [lookup_none (a := c) fun p hp e => hc (e ▸ t2 p hp)]
      rfl

theorem snakeChunks_later (s : List Char) :
    (∀ cur, cur ≠ [] →
      ((snakeChunks s cur).map capitalise).flatten = capitalise cur ++ camel true false s) ∧
    ((snakeChunks s []).map capitalise).flatten = camel true true s := by
  induction s with
  | nil =>
    refine ⟨fun cur h => ?_, rfl⟩
    simp [snakeChunks, h, camel]
  | cons c s ih =>
    by_cases hc : c = '_'
    · refine ⟨fun cur h => ?_, ?_⟩
      · simp [snakeChunks, hc, h, camel, ih.2]
      · simp [snakeChunks, hc, camel, ih.2]
    · refine ⟨fun cur h => ?_, ?_⟩
      · rw [snakeChunks, if_neg hc, ih.1 _ (by simp), camel, if_neg hc]
        cases cur with
        | nil => exact absurd rfl h
        | cons x xs => simp [capitalise]
      · rw [snakeChunks, if_neg hc, ih.1 _ (by simp), camel, if_neg hc]
        simp [capitalise, (letters c).1]

theorem snakeChunks_first (s cur : List Char) (h : cur ≠ []) :
    ∃ x xs, snakeChunks s cur = x :: xs ∧ x ++ (xs.map capitalise).flatten = cur ++ camel true false s := by
  induction s generalizing cur with
  | nil => exact ⟨cur, [], by simp [snakeChunks, h], by simp [camel]⟩
  | cons c s ih =>
    by_cases hc : c = '_'
    · exact ⟨cur, snakeChunks s [], by simp [snakeChunks, hc, h], by
        rw [(snakeChunks_later s).2]; simp [camel, hc]⟩
    · obtain ⟨x, xs, h1, h2⟩ := ih (cur ++ [c]) (by simp)
      exact ⟨x, xs, by rw [snakeChunks, if_neg hc, h1], by rw [h2]; simp [camel, hc]⟩

theorem snakeToCamelChars_eq (s : List Char) (a : Bool) : snakeToCamelChars s = camel false a s := by
  induction s generalizing a with
  | nil => rfl
  | cons c s ih =>
    by_cases hc : c = '_'
    · rw [camel, if_pos hc, ← ih]
      simp [snakeToCamelChars, snakeChunks, hc]
    · obtain ⟨x, xs, h1, h2⟩ := snakeChunks_first s [c] (by simp)
      rw [snakeToCamelChars, snakeChunks, if_neg hc, List.nil_append, h1]
      simp only [h2]
      simp [camel, hc]

theorem joinUnderscore_cons (w : List Char) {ws : List (List Char)} (h : ws ≠ []) :
    joinUnderscore (w :: ws) = w ++ '_' :: joinUnderscore ws := by
  cases ws with
  | nil => exact absurd rfl h
  | cons => rfl

theorem camelWords_ne_nil (s cur : List Char) (h : cur ≠ []) : camelWords s cur ≠ [] := by
  induction s generalizing cur with
  | nil => simp [camelWords, h]
  | cons c s ih =>
    rw [camelWords]
    split
    · simp
    · exact ih _ (by simp)

theorem camelWords_snake (s cur : List Char) :
    joinUnderscore ((camelWords s cur).map (·.map toLower)) = cur.map toLower ++ snake s := by
  induction s generalizing cur with
  | nil =>
    by_cases hc : cur = []
    · simp [camelWords, hc, joinUnderscore, snake]
    · simp [camelWords, hc, joinUnderscore, snake]
  | cons c s ih =>
    obtain ⟨-, h2, h3⟩ := letters c
    rw [camelWords]
    by_cases hc : isUpper c = true
    · rw [if_pos hc, List.map_cons, joinUnderscore_cons _ (by simp [camelWords_ne_nil]), ih]
      simp [snake, h3.mp hc, h2]
    · have : toLower c = c := by simp [toLower, hc]
      rw [if_neg hc, ih]
      simp [snake, mt h3.mpr hc, this]

theorem camelToSnakeChars_eq (s : List Char) : camelToSnakeChars s = snake s := by
  rw [camelToSnakeChars, camelWords_snake s []]
  rfl

theorem memberName_eq (cc : Bool) : memberName cc = jsonName cc := by
  funext s
  cases cc
  · rfl
  · exact congrArg String.ofList (snakeToCamelChars_eq s.toList false)

end WebAuthn
