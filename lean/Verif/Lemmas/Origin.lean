import Verif.Model.Url
import Verif.Spec.Basic
import Verif.Lemmas.Py
import Mathlib.Data.List.Induction
import Mathlib.Data.List.TakeWhile
import Mathlib.Tactic.IntervalCases

/-!
# Origins: `parse_origin` against the specification
-/

namespace WebAuthn

open Spec

/-! ## Splitting -/

theorem partitionAt_none {c : Char} {l : List Char} :
    (partitionAt c l).2 = none ↔ c ∉ l := by
  induction l with
  | nil => simp [partitionAt]
  | cons x l ih =>
    simp only [partitionAt]
    by_cases h : x = c
    · simp [h]
    · simp only [if_neg h, ih, List.mem_cons, not_or]
      exact ⟨fun h' => ⟨fun hc => h hc.symm, h'⟩, fun h' => h'.2⟩

theorem partitionAt_of_not_mem {c : Char} {l : List Char} (h : c ∉ l) :
    partitionAt c l = (l, none) := by
  induction l with
  | nil => rfl
  | cons x l ih =>
    simp only [List.mem_cons, not_or] at h
    simp only [partitionAt, if_neg (fun hx => h.1 hx.symm : ¬ x = c), ih h.2]

theorem partitionAt_append {c : Char} {a b : List Char} (h : c ∉ a) :
    partitionAt c (a ++ c :: b) = (a, some b) := by
  induction a with
  | nil => simp [partitionAt]
  | cons x a ih =>
    simp only [List.mem_cons, not_or] at h
    simp only [List.cons_append, partitionAt, if_neg (fun hx => h.1 hx.symm : ¬ x = c), ih h.2]

theorem exists_partition {c : Char} {l : List Char} (h : c ∈ l) :
    ∃ a b, l = a ++ c :: b ∧ c ∉ a := by
  induction l with
  | nil => cases h
  | cons x l ih =>
    by_cases hx : x = c
    · exact ⟨[], l, by simp [hx], by simp⟩
    · rcases List.mem_cons.mp h with h | h
      · exact absurd h.symm hx
      · obtain ⟨a, b, rfl, ha⟩ := ih h
        exact ⟨x :: a, b, rfl, by simp only [List.mem_cons, not_or]; exact ⟨fun e => hx e.symm, ha⟩⟩

/-- Case split on `partitionAt`. -/
theorem partitionAt_cases (c : Char) (l : List Char) :
    (c ∉ l ∧ partitionAt c l = (l, none)) ∨
      ∃ a b, l = a ++ c :: b ∧ c ∉ a ∧ partitionAt c l = (a, some b) := by
  by_cases h : c ∈ l
  · obtain ⟨a, b, rfl, ha⟩ := exists_partition h
    exact .inr ⟨a, b, rfl, ha, partitionAt_append ha⟩
  · exact .inl ⟨h, partitionAt_of_not_mem h⟩

theorem hasSchemeSep_iff {l : List Char} :
    hasSchemeSep l = true ↔ ∃ a b, l = a ++ ':' :: '/' :: '/' :: b := by
  induction l with
  | nil =>
    simp only [hasSchemeSep, Bool.false_eq_true, false_iff]
    rintro ⟨a, b, h⟩
    simp at h
  | cons c l ih =>
    simp only [hasSchemeSep, Bool.or_eq_true, ih, List.isPrefixOf_iff_prefix]
    constructor
    · rintro (⟨t, ht⟩ | ⟨a, b, rfl⟩)
      · exact ⟨[], t, ht.symm⟩
      · exact ⟨c :: a, b, rfl⟩
    · rintro ⟨a, b, h⟩
      cases a with
      | nil => exact .inl ⟨b, h.symm⟩
      | cons x a =>
        simp only [List.cons_append, List.cons.injEq] at h
        exact .inr ⟨a, b, h.2⟩

theorem cleaned_iff {s t : List Char} :
    Cleaned s t ↔ t = (s.dropWhile isC0OrSpace).filter (fun c => !isTabOrNewline c) := by
  have hf : ∀ l : List Char, l.filter (fun c => decide (c ≠ '\t' ∧ c ≠ '\r' ∧ c ≠ '\n')) =
      l.filter (fun c => !isTabOrNewline c) := by
    intro l
    congr 1
    funext c
    rw [Bool.eq_iff_iff]
    simp [isTabOrNewline, and_assoc]
  have hb : ∀ c, isC0OrSpace c = true ↔ Blank c := by
    intro c; simp [isC0OrSpace, Blank]
  constructor
  · rintro ⟨lead, rest, rfl, h1, h2, rfl⟩
    rw [hf]
    congr 1
    have : (lead ++ rest).dropWhile isC0OrSpace = rest := by
      induction lead with
      | nil =>
        cases rest with
        | nil => rfl
        | cons c r =>
          have := h2 c rfl
          rw [← hb] at this
          simp [this]
      | cons c lead ih =>
        have hc := (hb c).mpr (h1 c (by simp))
        simp only [List.cons_append, List.dropWhile, hc]
        exact ih (fun x hx => h1 x (by simp [hx]))
    exact this.symm
  · rintro rfl
    refine ⟨s.takeWhile isC0OrSpace, s.dropWhile isC0OrSpace, (List.takeWhile_append_dropWhile).symm,
      ?_, ?_, (hf _).symm⟩
    · intro c hc
      exact (hb c).mp (List.mem_takeWhile_imp hc)
    · intro c hc h
      have := List.head?_dropWhile_not isC0OrSpace s
      rw [hc] at this
      simp only at this
      rw [(hb c).mpr h] at this
      cases this

/-! ## Letters -/

theorem lower_eq (c : Char) :
    (if 'A' ≤ c ∧ c ≤ 'Z' then Char.ofNat (c.toNat + 32) else c) = toLower c := by
  unfold toLower isUpper
  simp

theorem lowerCase_iff {s l : List Char} : LowerCase s l ↔ s.map toLower = l := by
  unfold LowerCase
  simp only [lower_eq]

theorem letter_of_lower {c : Char} (h : isLower (toLower c) = true) :
    (isUpper c || isLower c) = true := by
  unfold toLower at h
  split at h
  · next hu => simp [hu]
  · simp [h]

theorem schemeChar_of_lower {c : Char} (h : isLower (toLower c) = true) :
    isSchemeChar c = true := by
  have := letter_of_lower h
  unfold isSchemeChar
  simp only [Bool.or_eq_true] at this ⊢
  rcases this with h | h <;> simp [h]

theorem not_colon_of_lower {c : Char} (h : isLower (toLower c) = true) : c ≠ ':' := by
  rintro rfl
  revert h
  decide

/-- `splitScheme` on text that begins with an http(s) scheme, in either case. -/
theorem splitScheme_append {s rest : List Char}
    (hs : s.map toLower = "http".toList ∨ s.map toLower = "https".toList) :
    splitScheme (s ++ ':' :: rest) = (s.map toLower, rest) := by
  have hl : ∀ c ∈ s, isLower (toLower c) = true := by
    intro c hc
    have : toLower c ∈ s.map toLower := List.mem_map_of_mem hc
    rcases hs with hs | hs <;> rw [hs] at this <;> revert this <;>
      simp only [String.reduceToList, List.mem_cons, List.not_mem_nil, or_false] <;>
      rintro (h | h) <;> (try rcases h with h | h) <;> (try rcases h with h | h) <;>
      (try rcases h with h | h) <;> rw [h] <;> decide
  have hne : s ≠ [] := by rintro rfl; revert hs; decide
  have hcolon : ':' ∉ s := fun h => not_colon_of_lower (hl _ h) rfl
  unfold splitScheme
  rw [partitionAt_append hcolon]
  cases s with
  | nil => exact absurd rfl hne
  | cons c s =>
    simp only
    rw [if_pos]
    rw [Bool.and_eq_true]
    refine ⟨letter_of_lower (hl c (by simp)), ?_⟩
    rw [List.all_eq_true]
    intro x hx
    exact schemeChar_of_lower (hl x hx)

/-- The scheme that `splitScheme` returns was written before the first colon. -/
theorem splitScheme_nonempty {u s rest : List Char} (h : splitScheme u = (s, rest)) (hs : s ≠ []) :
    ∃ pre, u = pre ++ ':' :: rest ∧ pre.map toLower = s := by
  unfold splitScheme at h
  rcases partitionAt_cases ':' u with ⟨-, hp⟩ | ⟨a, b, rfl, -, hp⟩
  · rw [hp] at h
    simp only [Prod.mk.injEq] at h
    exact absurd h.1.symm hs
  · rw [hp] at h
    cases a with
    | nil =>
      simp only [Prod.mk.injEq] at h
      exact absurd h.1.symm hs
    | cons c a =>
      simp only at h
      split at h
      · simp only [Prod.mk.injEq] at h
        exact ⟨c :: a, by rw [h.2], h.1⟩
      · simp only [Prod.mk.injEq] at h
        exact absurd h.1.symm hs

/-! ## The authority -/

theorem netlocEnd_iff {c : Char} : isNetlocEnd c = false ↔ c ≠ '/' ∧ c ≠ '?' ∧ c ≠ '#' := by
  simp [isNetlocEnd, and_assoc]

/-- The bracket checks, as a condition. -/
def bracketsOk (env : Env) (netloc : List Char) : Prop :=
  ('[' ∈ netloc ↔ ']' ∈ netloc) ∧
  ('[' ∈ netloc → env.bracketOk (partitionAt ']' ((partitionAt '[' netloc).2.getD [])).1 = true)

theorem bracketsOk_iff {env : Env} {netloc : List Char} :
    bracketsOk env netloc ↔ (('[' ∈ netloc ↔ ']' ∈ netloc) ∧
      (∀ pre body post, netloc = pre ++ '[' :: body ++ post → '[' ∉ pre → ']' ∉ body →
        (post = [] ∨ ∃ r, post = ']' :: r) → env.bracketOk body = true)) := by
  unfold bracketsOk
  constructor
  · rintro ⟨h1, h2⟩
    refine ⟨h1, ?_⟩
    intro pre body post he hpre hbody hpost
    have hm : '[' ∈ netloc := by rw [he]; simp
    have := h2 hm
    rw [he, List.append_assoc, List.cons_append, partitionAt_append hpre] at this
    simp only [Option.getD_some] at this
    rcases hpost with rfl | ⟨r, rfl⟩
    · rw [List.append_nil, partitionAt_of_not_mem hbody] at this
      exact this
    · rw [partitionAt_append hbody] at this
      exact this
  · rintro ⟨h1, h2⟩
    refine ⟨h1, ?_⟩
    intro hm
    obtain ⟨pre, rest, rfl, hpre⟩ := exists_partition hm
    rw [partitionAt_append hpre]
    simp only [Option.getD_some]
    rcases partitionAt_cases ']' rest with ⟨hb, hp⟩ | ⟨body, post, rfl, hb, hp⟩
    · rw [hp]
      exact h2 pre rest [] (by simp) hpre hb (.inl rfl)
    · rw [hp]
      exact h2 pre body (']' :: post) (by simp) hpre hb (.inr ⟨post, rfl⟩)

theorem splitNetloc_ok_iff {env : Env} {rest netloc tail : List Char} :
    splitNetloc env ('/' :: '/' :: rest) = .ok (netloc, tail) ↔
      rest = netloc ++ tail ∧ (∀ c ∈ netloc, c ≠ '/' ∧ c ≠ '?' ∧ c ≠ '#') ∧
      (∀ c, tail.head? = some c → c = '/' ∨ c = '?' ∨ c = '#') ∧ bracketsOk env netloc := by
  have hnot : ∀ c : Char, (!isNetlocEnd c) = true ↔ c ≠ '/' ∧ c ≠ '?' ∧ c ≠ '#' := by
    intro c; rw [Bool.not_eq_true', netlocEnd_iff]
  have key : ∀ nl tl : List Char, rest = nl ++ tl → (∀ c ∈ nl, c ≠ '/' ∧ c ≠ '?' ∧ c ≠ '#') →
      (∀ c, tl.head? = some c → c = '/' ∨ c = '?' ∨ c = '#') →
      rest.takeWhile (fun c => !isNetlocEnd c) = nl ∧ rest.dropWhile (fun c => !isNetlocEnd c) = tl := by
    rintro nl tl rfl h1 h2
    induction nl with
    | nil =>
      cases tl with
      | nil => simp
      | cons c tl =>
        have hc := h2 c rfl
        have : (!isNetlocEnd c) = false := by
          rw [← Bool.not_eq_true, hnot]
          rintro ⟨a1, a2, a3⟩
          rcases hc with hc | hc | hc <;> contradiction
        simp only [List.nil_append, List.takeWhile, List.dropWhile, this]
        exact ⟨trivial, trivial⟩
    | cons c nl ih =>
      have hc := (hnot c).mpr (h1 c (by simp))
      have := ih (fun x hx => h1 x (by simp [hx]))
      simp only [List.cons_append, List.takeWhile, List.dropWhile, hc]
      exact ⟨by rw [this.1], this.2⟩
  have hok : splitNetloc env ('/' :: '/' :: rest) = .ok (netloc, tail) ↔
      netloc = rest.takeWhile (fun c => !isNetlocEnd c) ∧
      tail = rest.dropWhile (fun c => !isNetlocEnd c) ∧ bracketsOk env netloc := by
    unfold splitNetloc
    simp only
    set nl := rest.takeWhile (fun c => !isNetlocEnd c) with hnl
    set tl := rest.dropWhile (fun c => !isNetlocEnd c) with htl
    have hb : bracketsOk env nl ↔ ((nl.contains '[' != nl.contains ']') = false ∧
        ((nl.contains '[' && nl.contains ']') = true →
          env.bracketOk (partitionAt ']' ((partitionAt '[' nl).2.getD [])).1 = true)) := by
      unfold bracketsOk
      rw [← List.contains_iff_mem, ← List.contains_iff_mem]
      cases nl.contains '[' <;> cases nl.contains ']' <;> simp
    constructor
    · intro h
      split at h
      · cases h
      · next h1 =>
        split at h
        · next h2 =>
          split at h
          · next h3 =>
            simp only [Except.ok.injEq, Prod.mk.injEq] at h
            obtain ⟨rfl, rfl⟩ := h
            exact ⟨rfl, rfl, hb.mpr ⟨by simpa using h1, fun _ => h3⟩⟩
          · cases h
        · next h2 =>
          simp only [Except.ok.injEq, Prod.mk.injEq] at h
          obtain ⟨rfl, rfl⟩ := h
          exact ⟨rfl, rfl, hb.mpr ⟨by simpa using h1, fun h => absurd h h2⟩⟩
    · rintro ⟨rfl, rfl, h⟩
      obtain ⟨h1, h2⟩ := hb.mp h
      rw [h1]
      simp only [Bool.false_eq_true, if_false]
      split
      · next h3 => rw [if_pos (h2 h3)]
      · rfl
  rw [hok]
  constructor
  · rintro ⟨h1, h2, h3⟩
    refine ⟨?_, ?_, ?_, h3⟩
    · rw [h1, h2, List.takeWhile_append_dropWhile]
    · intro c hc
      rw [h1] at hc
      exact (hnot c).mp (List.mem_takeWhile_imp (p := fun c => !isNetlocEnd c) hc)
    · intro c hc
      rw [h2] at hc
      have := List.head?_dropWhile_not (fun c => !isNetlocEnd c) rest
      rw [hc] at this
      simp only [Bool.not_eq_false'] at this
      simpa [isNetlocEnd, or_assoc] using this
  · rintro ⟨h1, h2, h3, h4⟩
    obtain ⟨a, b⟩ := key netloc tail h1 h2 h3
    exact ⟨a.symm, b.symm, h4⟩

theorem afterLastAt_iff {n h : List Char} :
    afterLastAt n = h ↔ '@' ∉ h ∧ (n = h ∨ ∃ u, n = u ++ '@' :: h) := by
  have key : ∀ h : List Char, '@' ∉ h → (n = h ∨ ∃ u, n = u ++ '@' :: h) → afterLastAt n = h := by
    intro h hh hn
    have hrev : ∀ r t : List Char, '@' ∉ r → (t = [] ∨ ∃ t', t = '@' :: t') →
        (r ++ t).takeWhile (· ≠ '@') = r := by
      intro r t hr ht
      induction r with
      | nil => rcases ht with rfl | ⟨t', rfl⟩ <;> simp
      | cons c r ih =>
        simp only [List.mem_cons, not_or] at hr
        have : (decide (c ≠ '@')) = true := by simpa using fun e => hr.1 e.symm
        simp only [List.cons_append, List.takeWhile, this, ih hr.2]
    unfold afterLastAt
    rcases hn with rfl | ⟨u, rfl⟩
    · have := hrev n.reverse [] (by simpa using hh) (.inl rfl)
      rw [List.append_nil] at this
      rw [this, List.reverse_reverse]
    · have := hrev h.reverse ('@' :: u.reverse) (by simpa using hh) (.inr ⟨_, rfl⟩)
      rw [show (u ++ '@' :: h).reverse = h.reverse ++ '@' :: u.reverse by simp, this,
        List.reverse_reverse]
  constructor
  · rintro rfl
    have hex : ∃ h, '@' ∉ h ∧ (n = h ∨ ∃ u, n = u ++ '@' :: h) := by
      induction n with
      | nil => exact ⟨[], by simp, .inl rfl⟩
      | cons c n ih =>
        by_cases hm : '@' ∈ n
        · have : ∃ h, '@' ∉ h ∧ ∃ u, n = u ++ '@' :: h := by
            clear ih
            obtain ⟨a, b, hab, ha⟩ := exists_partition (l := n.reverse) (c := '@') (by simpa using hm)
            refine ⟨a.reverse, by simpa using ha, b.reverse, ?_⟩
            have := congrArg List.reverse hab
            simpa using this
          obtain ⟨h, hh, u, rfl⟩ := this
          exact ⟨h, hh, .inr ⟨c :: u, rfl⟩⟩
        · by_cases hc : c = '@'
          · exact ⟨n, hm, .inr ⟨[], by simp [hc]⟩⟩
          · exact ⟨c :: n, by simp only [List.mem_cons, not_or]; exact ⟨fun e => hc e.symm, hm⟩,
              .inl rfl⟩
    obtain ⟨h, h1, h2⟩ := hex
    rw [key h h1 h2]
    exact ⟨h1, h2⟩
  · rintro ⟨h1, h2⟩
    exact key h h1 h2

/-- The port text as `urlPort` computes it. -/
def portText (hostinfo : List Char) : List Char :=
  match partitionAt '[' hostinfo with
  | (_, some bracketed) =>
    (partitionAt ':' ((partitionAt ']' bracketed).2.getD [])).2.getD []
  | (_, none) => (partitionAt ':' hostinfo).2.getD []

theorem portText_iff {h p : List Char} : PortText h p ↔ p = portText h := by
  constructor
  · intro hp
    cases hp with
    | none _ h1 h2 => simp [portText, partitionAt_of_not_mem h2, partitionAt_of_not_mem h1]
    | some host _ h1 h2 h3 =>
      have h4 : '[' ∉ host ++ ':' :: p := by simp [h2, h3]
      simp [portText, partitionAt_of_not_mem h4, partitionAt_append h1]
    | bracketUnclosed pre body h1 h2 =>
      simp [portText, partitionAt_append h1, partitionAt_of_not_mem h2, partitionAt]
    | bracketNone pre body mid h1 h2 h3 =>
      simp [portText, partitionAt_append h1, partitionAt_append h2, partitionAt_of_not_mem h3]
    | bracketSome pre body mid _ h1 h2 h3 =>
      simp [portText, partitionAt_append h1, partitionAt_append h2, partitionAt_append h3]
  · rintro rfl
    rcases partitionAt_cases '[' h with ⟨h1, hp⟩ | ⟨pre, b, rfl, h1, hp⟩
    · unfold portText
      rw [hp]
      simp only
      rcases partitionAt_cases ':' h with ⟨h2, hp2⟩ | ⟨host, port, rfl, h2, hp2⟩
      · rw [hp2]; exact .none h h2 h1
      · rw [hp2]
        simp only [List.mem_append, List.mem_cons, not_or] at h1
        exact .some host port h2 h1.1 h1.2.2
    · unfold portText
      rw [hp]
      simp only
      rcases partitionAt_cases ']' b with ⟨h2, hp2⟩ | ⟨body, m, rfl, h2, hp2⟩
      · rw [hp2]; exact .bracketUnclosed pre b h1 h2
      · rw [hp2]
        simp only [Option.getD_some]
        rcases partitionAt_cases ':' m with ⟨h3, hp3⟩ | ⟨mid, port, rfl, h3, hp3⟩
        · rw [hp3]
          simpa using PortText.bracketNone pre body m h1 h2 h3
        · rw [hp3]
          simpa using PortText.bracketSome pre body mid port h1 h2 h3

theorem digit_iff {c : Char} :
    ('0' ≤ c && c ≤ '9') = true ↔ ∃ k, k < 10 ∧ c = Char.ofNat (48 + k) := by
  simp only [Bool.and_eq_true, decide_eq_true_eq]
  constructor
  · rintro ⟨h1, h2⟩
    have h1' : 48 ≤ c.toNat := h1
    have h2' : c.toNat ≤ 57 := h2
    refine ⟨c.toNat - 48, by omega, ?_⟩
    rw [show 48 + (c.toNat - 48) = c.toNat by omega, Char.ofNat_toNat]
  · rintro ⟨k, hk, rfl⟩
    interval_cases k <;> decide

theorem decimalValue_snoc (s : List Char) (c : Char) :
    decimalValue (s ++ [c]) = decimalValue s * 10 + (c.toNat - 48) := by
  simp [decimalValue]

theorem decimal_iff {s : List Char} {n : Nat} :
    Decimal s n ↔ s.all (fun c => '0' ≤ c && c ≤ '9') = true ∧ n = decimalValue s := by
  have hd : ∀ k, k < 10 → (Char.ofNat (48 + k)).toNat - 48 = k := by
    intro k hk
    interval_cases k <;> decide
  constructor
  · intro h
    induction h with
    | nil => exact ⟨rfl, rfl⟩
    | snoc s n k _ hk ih =>
      refine ⟨?_, ?_⟩
      · rw [List.all_append, ih.1, Bool.true_and, List.all_cons, List.all_nil, Bool.and_true]
        exact digit_iff.mpr ⟨k, hk, rfl⟩
      · rw [decimalValue_snoc, hd k hk, ih.2]
        omega
  · rintro ⟨h, rfl⟩
    induction s using List.reverseRecOn with
    | nil => exact .nil
    | append_singleton s c ih =>
      rw [List.all_append, Bool.and_eq_true, List.all_cons, List.all_nil, Bool.and_true] at h
      obtain ⟨k, hk, rfl⟩ := digit_iff.mp h.2
      rw [decimalValue_snoc, hd k hk]
      have := Decimal.snoc s _ k (ih h.1) hk
      rwa [show decimalValue s * 10 + k = 10 * decimalValue s + k by omega]

theorem urlPort_ok_iff {netloc : List Char} {dflt p : Nat} :
    (∃ o, urlPort netloc = .ok o ∧ o.getD dflt = p) ↔ PortOf netloc dflt p := by
  have hu : urlPort netloc =
      if portText (afterLastAt netloc) = [] then .ok none
      else if (portText (afterLastAt netloc)).all (fun c => '0' ≤ c && c ≤ '9') then
        if decimalValue (portText (afterLastAt netloc)) ≤ 65535 then
          .ok (some (decimalValue (portText (afterLastAt netloc))))
        else .error .valueError
      else .error .valueError := rfl
  rw [hu]
  unfold PortOf
  constructor
  · rintro ⟨o, h, rfl⟩
    obtain ⟨h1, h2⟩ := afterLastAt_iff.mp (rfl : afterLastAt netloc = _)
    obtain ⟨u, hu⟩ : ∃ u, (netloc = afterLastAt netloc ∧ u = ([] : List Char) ∨
        netloc = u ++ '@' :: afterLastAt netloc) := by
      rcases h2 with h2 | ⟨u, h2⟩
      · exact ⟨[], .inl ⟨h2, rfl⟩⟩
      · exact ⟨u, .inr h2⟩
    refine ⟨u, afterLastAt netloc, _, hu, h1, portText_iff.mpr rfl, ?_⟩
    split at h
    · next he =>
      cases h
      exact .inl ⟨he, rfl⟩
    · next he =>
      split at h
      · next hd =>
        split at h
        · next hle =>
          cases h
          exact .inr ⟨he, decimal_iff.mpr ⟨hd, rfl⟩, hle⟩
        · cases h
      · cases h
  · rintro ⟨u, hi, port, hn, hat, hp, h⟩
    have : afterLastAt netloc = hi := by
      rw [afterLastAt_iff]
      refine ⟨hat, ?_⟩
      rcases hn with ⟨h, _⟩ | h
      · exact .inl h
      · exact .inr ⟨u, h⟩
    rw [this, ← portText_iff.mp hp]
    rcases h with ⟨rfl, rfl⟩ | ⟨hne, hdec, hle⟩
    · exact ⟨none, by simp, rfl⟩
    · obtain ⟨h1, rfl⟩ := decimal_iff.mp hdec
      exact ⟨some (decimalValue port), by rw [if_neg hne, if_pos h1, if_pos hle], rfl⟩

/-! ## The whole function -/

/-- What remains of the URL after the authority when `parse_origin` accepts. -/
theorem tail_iff {tail : List Char} (hs : ∀ c, tail.head? = some c → c = '/' ∨ c = '?' ∨ c = '#') :
    ((partitionAt '?' (partitionAt '#' tail).1).1 = [] ∧
      (partitionAt '?' (partitionAt '#' tail).1).2.getD [] = [] ∧
      (partitionAt '#' tail).2.getD [] = []) ↔
      (tail = [] ∨ tail = ['?'] ∨ tail = ['#'] ∨ tail = ['?', '#']) := by
  constructor
  · rintro ⟨h1, h2, h3⟩
    rcases partitionAt_cases '#' tail with ⟨-, hp⟩ | ⟨a, b, rfl, -, hp⟩
    · rw [hp] at h1 h2
      simp only at h1 h2
      rcases partitionAt_cases '?' tail with ⟨-, hq⟩ | ⟨a, b, rfl, -, hq⟩
      · rw [hq] at h1; exact .inl h1
      · rw [hq] at h1 h2
        simp only [Option.getD_some] at h1 h2
        subst h1 h2
        exact .inr (.inl rfl)
    · rw [hp] at h1 h2 h3
      simp only [Option.getD_some] at h1 h2 h3
      subst h3
      rcases partitionAt_cases '?' a with ⟨-, hq⟩ | ⟨a', b', rfl, -, hq⟩
      · rw [hq] at h1
        simp only at h1
        subst h1
        exact .inr (.inr (.inl rfl))
      · rw [hq] at h1 h2
        simp only [Option.getD_some] at h1 h2
        subst h1 h2
        exact .inr (.inr (.inr rfl))
  · rintro (rfl | rfl | rfl | rfl) <;> decide

theorem nfkc_iff {env : Env} {netloc : List Char} :
    (!netloc.all (fun c => c.toNat < 128) && env.nfkcBad netloc) = false ↔
      ((∃ c ∈ netloc, 128 ≤ c.toNat) → env.nfkcBad netloc = false) := by
  have : (netloc.all (fun c => c.toNat < 128)) = false ↔ ∃ c ∈ netloc, 128 ≤ c.toNat := by
    rw [List.all_eq_false]
    simp
  rw [← this]
  cases netloc.all (fun c => c.toNat < 128) <;> simp

theorem urlsplit_http_ok_iff {env : Env} {s : List Char} {u : Url}
    (hsch : u.scheme = "http".toList ∨ u.scheme = "https".toList) (hn : u.netloc ≠ [])
    (hp : u.path = []) (hq : u.query = []) (hf : u.fragment = []) :
    urlsplit env s = .ok u ↔ ∃ scheme tail,
      Cleaned s (scheme ++ ':' :: '/' :: '/' :: u.netloc ++ tail) ∧
      (tail = [] ∨ tail = ['?'] ∨ tail = ['#'] ∨ tail = ['?', '#']) ∧
      (∀ c ∈ u.netloc, c ≠ '/' ∧ c ≠ '?' ∧ c ≠ '#') ∧ NetlocOk env u.netloc ∧
      LowerCase scheme u.scheme := by
  have hsne : u.scheme ≠ [] := by rcases hsch with h | h <;> rw [h] <;> decide
  unfold urlsplit
  simp only [bind_ok_iff, Prod.exists]
  constructor
  · rintro ⟨netloc, tail, h1, h2⟩
    split at h2
    · cases h2
    · next hnf =>
      cases h2
      simp only at hsch hn hp hq hf hsne ⊢
      generalize hu : (s.dropWhile isC0OrSpace).filter (fun c => !isTabOrNewline c) = cleaned
        at *
      rcases hsp : splitScheme cleaned with ⟨sch, rest⟩
      rw [hsp] at hsch hsne h1
      simp only at hsch hsne h1 ⊢
      obtain ⟨pre, hpre, hmap⟩ := splitScheme_nonempty hsp hsne
      have hslash : ∃ r, rest = '/' :: '/' :: r := by
        unfold splitNetloc at h1
        split at h1
        · exact ⟨_, rfl⟩
        · simp only [Except.ok.injEq, Prod.mk.injEq] at h1
          exact absurd h1.1.symm hn
      obtain ⟨r, hr⟩ := hslash
      rw [hr] at h1
      obtain ⟨he, hnl, htl, hbr⟩ := splitNetloc_ok_iff.mp h1
      refine ⟨pre, tail, ?_, (tail_iff htl).mp ⟨hp, hq, hf⟩, hnl, ?_, lowerCase_iff.mpr hmap⟩
      · rw [cleaned_iff, hu, hpre, hr, he]
        simp
      · obtain ⟨b1, b2⟩ := bracketsOk_iff.mp hbr
        exact ⟨b1, b2, nfkc_iff.mp (by simpa using hnf)⟩
  · rintro ⟨scheme, tail, hc, ht, hnl, ⟨b1, b2, b3⟩, hl⟩
    rw [lowerCase_iff] at hl
    rw [cleaned_iff] at hc
    rw [← hc]
    have hsp : splitScheme (scheme ++ ':' :: '/' :: '/' :: u.netloc ++ tail) =
        (u.scheme, '/' :: '/' :: (u.netloc ++ tail)) := by
      have := splitScheme_append (s := scheme) (rest := '/' :: '/' :: (u.netloc ++ tail))
        (by rw [hl]; exact hsch)
      rw [hl] at this
      simpa using this
    rw [hsp]
    have hh : ∀ c, tail.head? = some c → c = '/' ∨ c = '?' ∨ c = '#' := by
      intro c hc
      rcases ht with rfl | rfl | rfl | rfl <;> simp at hc <;> simp [← hc]
    refine ⟨u.netloc, tail, splitNetloc_ok_iff.mpr ⟨rfl, hnl, hh, bracketsOk_iff.mpr ⟨b1, b2⟩⟩, ?_⟩
    have hnf := nfkc_iff.mpr b3
    simp only [hnf]
    obtain ⟨p1, p2, p3⟩ := (tail_iff hh).mpr ht
    rw [if_neg (by simp)]
    congr 1
    cases u
    simp_all

/-- `parse_origin` succeeds exactly on http(s) origins. -/
theorem parseOrigin_ok_iff {env : Env} {s : String} {o : Origin} :
    parseOrigin env s = .ok o ↔ OriginOf env s o := by
  unfold parseOrigin OriginOf
  rw [← hasSchemeSep_iff]
  by_cases hsep : hasSchemeSep s.toList = true
  swap
  · simp [hsep, raise]
  simp only [hsep, Bool.not_true, Bool.false_eq_true, if_false, true_and, bind_ok_iff]
  constructor
  · rintro ⟨u, hu, h⟩
    split at h
    · cases h
    · next h1 =>
      split at h
      · cases h
      · next h2 =>
        split at h
        · cases h
        · next h3 =>
          simp only [bind_ok_iff, Except.ok.injEq] at h
          obtain ⟨p, hp, rfl⟩ := h
          simp only [Bool.or_eq_true, decide_eq_true_eq, not_or, not_not] at h1
          have hsch : u.scheme = "http".toList ∨ u.scheme = "https".toList := by
            simp only [Bool.and_eq_true, decide_eq_true_eq, not_and, not_not] at h3
            by_cases h : u.scheme = "http".toList
            · exact .inl h
            · exact .inr (h3 h)
          obtain ⟨scheme, tail, hc, ht, hnl, hok, hl⟩ :=
            (urlsplit_http_ok_iff hsch h2 h1.1.1 h1.1.2 h1.2).mp hu
          refine ⟨scheme, u.netloc, tail, hc, ht, hnl, h2, hok, by simpa using hl, by simp, ?_⟩
          rcases hsch with h | h
          · refine .inl ⟨by simp [h], urlPort_ok_iff.mp ⟨p, hp, ?_⟩⟩
            simp [defaultPort, h]
          · refine .inr ⟨by simp [h], urlPort_ok_iff.mp ⟨p, hp, ?_⟩⟩
            simp [defaultPort, h]
  · rintro ⟨scheme, netloc, tail, hc, ht, hnl, hne, hok, hl, hh, hport⟩
    refine ⟨{ scheme := o.scheme.toList, netloc, path := [], query := [], fragment := [] }, ?_, ?_⟩
    · rw [urlsplit_http_ok_iff (by rcases hport with h | h <;> simp [h.1]) hne rfl rfl rfl]
      exact ⟨scheme, tail, hc, ht, hnl, hok, hl⟩
    · have hsch : o.scheme = "http" ∨ o.scheme = "https" := by
        rcases hport with h | h <;> simp [h.1]
      obtain ⟨p, hp, hpd⟩ : ∃ p, urlPort netloc = .ok p ∧
          p.getD (defaultPort o.scheme.toList) = o.port := by
        rcases hport with ⟨h1, h2⟩ | ⟨h1, h2⟩
        · rw [h1]; exact urlPort_ok_iff.mpr h2
        · rw [h1]; exact urlPort_ok_iff.mpr h2
      simp only [ne_eq, not_true_eq_false, decide_false, Bool.or_self, Bool.false_eq_true, if_false,
        hne]
      rw [if_neg (by rcases hsch with h | h <;> simp [h])]
      simp only [bind_ok_iff, Except.ok.injEq]
      refine ⟨p, hp, ?_⟩
      rw [hpd, ← hh]
      simp

end WebAuthn
