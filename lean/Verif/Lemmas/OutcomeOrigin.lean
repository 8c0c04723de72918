import Verif.Spec.Outcome
import Verif.Lemmas.Ordinary

/-!
# Errors of `parse_origin` and of the expected origins
-/

namespace WebAuthn

open WebAuthn.Spec

theorem schemeName_cons_iff {c : Char} {l : List Char} :
    ((isUpper c || isLower c) && (c :: l).all isSchemeChar) = true ↔ SchemeName (c :: l) := by
  have hs : ∀ d, isSchemeChar d = true ↔ ('A' ≤ d ∧ d ≤ 'Z') ∨ ('a' ≤ d ∧ d ≤ 'z') ∨
      ('0' ≤ d ∧ d ≤ '9') ∨ d = '+' ∨ d = '-' ∨ d = '.' := by
    intro d
    simp [isSchemeChar, isUpper, isLower, or_assoc]
  rw [Bool.and_eq_true, List.all_eq_true, SchemeName]
  simp only [hs]
  refine and_congr ?_ Iff.rfl
  simp only [isUpper, isLower, Bool.or_eq_true]
  constructor
  · intro h; exact ⟨c, l, rfl, by simpa using h⟩
  · rintro ⟨c', l', h, h'⟩
    cases h
    simpa using h'

theorem schemeName_no_colon {s : List Char} (h : SchemeName s) : ':' ∉ s := by
  intro hc
  have := h.2 _ hc
  revert this
  decide

theorem splitScheme_sound {t : List Char} : SchemeSplit t (splitScheme t).1 (splitScheme t).2 := by
  unfold splitScheme
  rcases partitionAt_cases ':' t with ⟨hn, hp⟩ | ⟨a, b, rfl, ha, hp⟩
  · rw [hp]
    refine .none _ ?_
    rintro name rest rfl
    simp at hn
  · rw [hp]
    have huniq : ∀ name rest, a ++ ':' :: b = name ++ ':' :: rest → SchemeName name → name = a := by
      intro name rest h hn
      have h2 := partitionAt_append (b := rest) (schemeName_no_colon hn)
      rw [← h, hp] at h2
      exact (Prod.ext_iff.mp h2).1.symm
    cases a with
    | nil =>
      refine .none _ ?_
      intro name rest h hn
      rw [huniq name rest h hn] at hn
      obtain ⟨⟨c, l, h, -⟩, -⟩ := hn
      cases h
    | cons c l =>
      simp only
      split_ifs with hc
      · exact .some _ _ _ (schemeName_cons_iff.mp hc) (lowerCase_iff.mpr rfl)
      · refine .none _ ?_
        intro name rest h hn
        rw [huniq name rest h hn] at hn
        exact hc (schemeName_cons_iff.mpr hn)

theorem splitScheme_iff {t s r : List Char} : splitScheme t = (s, r) ↔ SchemeSplit t s r := by
  constructor
  · intro h
    have := splitScheme_sound (t := t)
    rwa [h] at this
  · intro h
    cases h with
    | some name scheme rest h1 h2 =>
      have h3 := splitScheme_sound (t := name ++ ':' :: r)
      unfold splitScheme
      rw [partitionAt_append (schemeName_no_colon h1)]
      obtain ⟨c, l, rfl, -⟩ := h1.1
      simp only
      rw [if_pos (schemeName_cons_iff.mpr h1), lowerCase_iff.mp h2]
    | none _ h1 =>
      have h3 := splitScheme_sound (t := t)
      generalize hp : splitScheme t = p at h3
      obtain ⟨p1, p2⟩ := p
      cases h3 with
      | some name scheme rest h4 => exact absurd h4 (h1 _ _ rfl)
      | none => rfl

/-- The authority and the rest. -/
theorem netloc_split (r : List Char) : ∃ netloc tail, r = netloc ++ tail ∧
    (∀ c ∈ netloc, c ≠ '/' ∧ c ≠ '?' ∧ c ≠ '#') ∧
    (∀ c, tail.head? = some c → c = '/' ∨ c = '?' ∨ c = '#') := by
  induction r with
  | nil => exact ⟨[], [], rfl, by simp, by simp⟩
  | cons c r ih =>
    by_cases hc : c = '/' ∨ c = '?' ∨ c = '#'
    · exact ⟨[], c :: r, rfl, by simp, by simpa using hc⟩
    · obtain ⟨n, t, rfl, h1, h2⟩ := ih
      refine ⟨c :: n, t, rfl, ?_, h2⟩
      intro d hd
      rcases List.mem_cons.mp hd with rfl | hd
      · simpa [not_or] using hc
      · exact h1 d hd

theorem netloc_split_unique {n t n' t' : List Char} (h : n ++ t = n' ++ t')
    (h1 : ∀ c ∈ n, c ≠ '/' ∧ c ≠ '?' ∧ c ≠ '#')
    (h2 : ∀ c, t.head? = some c → c = '/' ∨ c = '?' ∨ c = '#')
    (h1' : ∀ c ∈ n', c ≠ '/' ∧ c ≠ '?' ∧ c ≠ '#')
    (h2' : ∀ c, t'.head? = some c → c = '/' ∨ c = '?' ∨ c = '#') : n = n' ∧ t = t' := by
  induction n generalizing n' with
  | nil =>
    cases n' with
    | nil => exact ⟨rfl, h⟩
    | cons c n' =>
      simp only [List.nil_append, List.cons_append] at h
      have h3 := h2 c (by rw [h]; rfl)
      have h4 := h1' c (by simp)
      exact absurd h3 (by simp [h4])
  | cons c n ih =>
    cases n' with
    | nil =>
      simp only [List.nil_append, List.cons_append] at h
      have h3 := h2' c (by rw [← h]; rfl)
      have h4 := h1 c (by simp)
      exact absurd h3 (by simp [h4])
    | cons d n' =>
      simp only [List.cons_append, List.cons.injEq] at h
      obtain ⟨rfl, h⟩ := h
      obtain ⟨rfl, rfl⟩ := ih h (fun x hx => h1 x (by simp [hx])) (fun x hx => h1' x (by simp [hx]))
      exact ⟨rfl, rfl⟩

theorem netlocOk_iff {env : Env} {netloc : List Char} : NetlocOk env netloc ↔
    bracketsOk env netloc ∧
      (!netloc.all (fun c => c.toNat < 128) && env.nfkcBad netloc) = false := by
  rw [bracketsOk_iff, nfkc_iff, NetlocOk, and_assoc]

theorem urlPort_error_iff {netloc : List Char} :
    urlPort netloc = .error .valueError ↔ ∀ p, ¬ PortOf netloc 0 p := by
  constructor
  · intro h p hp
    obtain ⟨o, ho, -⟩ := urlPort_ok_iff.mpr hp
    rw [h] at ho
    cases ho
  · intro h
    cases hp : urlPort netloc with
    | ok o => exact absurd (urlPort_ok_iff.mp ⟨o, hp, rfl⟩) (h _)
    | error e => rw [raises_urlPort netloc e hp]

/-- `urlsplit` of a text with an authority. -/
theorem urlsplit_netloc {env : Env} {s text scheme netloc tail : List Char}
    (hc : Cleaned s text) (hs : SchemeSplit text scheme ('/' :: '/' :: netloc ++ tail))
    (h1 : ∀ c ∈ netloc, c ≠ '/' ∧ c ≠ '?' ∧ c ≠ '#')
    (h2 : ∀ c, tail.head? = some c → c = '/' ∨ c = '?' ∨ c = '#') :
    (¬ NetlocOk env netloc → urlsplit env s = .error .valueError) ∧
    (NetlocOk env netloc → urlsplit env s = .ok {
      scheme, netloc, path := (partitionAt '?' (partitionAt '#' tail).1).1
      query := (partitionAt '?' (partitionAt '#' tail).1).2.getD []
      fragment := (partitionAt '#' tail).2.getD [] }) := by
  rw [cleaned_iff] at hc
  rw [← splitScheme_iff] at hs
  have hu : urlsplit env s = (splitNetloc env ('/' :: '/' :: (netloc ++ tail)) >>= fun p =>
      if !p.1.all (fun c => c.toNat < 128) && env.nfkcBad p.1 then .error .valueError
      else .ok {
        scheme, netloc := p.1, path := (partitionAt '?' (partitionAt '#' p.2).1).1
        query := (partitionAt '?' (partitionAt '#' p.2).1).2.getD []
        fragment := (partitionAt '#' p.2).2.getD [] }) := by
    unfold urlsplit
    rw [← hc]
    simp only [hs]
    rfl
  rw [hu, netlocOk_iff]
  by_cases hb : bracketsOk env netloc
  · rw [splitNetloc_ok_iff.mpr ⟨rfl, h1, h2, hb⟩, ok_bind]
    constructor
    · intro h
      rw [if_pos]
      rw [← Bool.not_eq_false]
      exact fun h' => h ⟨hb, h'⟩
    · intro h
      rw [if_neg]
      rw [h.2]
      simp
  · constructor
    · intro _
      cases hn : splitNetloc env ('/' :: '/' :: (netloc ++ tail)) with
      | ok p =>
        obtain ⟨n, t⟩ := p
        rw [splitNetloc_ok_iff] at hn
        obtain ⟨e, h3, h4, h5⟩ := hn
        obtain ⟨rfl, rfl⟩ := netloc_split_unique e h1 h2 h3 h4
        exact absurd h5 hb
      | error e => rw [raises_splitNetloc env _ e hn]; rfl
    · intro h
      exact absurd h.1 hb

/-- `urlsplit` of a text without authority. -/
theorem urlsplit_no_netloc {env : Env} {s text scheme rest : List Char}
    (hc : Cleaned s text) (hs : SchemeSplit text scheme rest)
    (h : ∀ r, rest ≠ '/' :: '/' :: r) : ∃ u, urlsplit env s = .ok u ∧ u.netloc = [] := by
  rw [cleaned_iff] at hc
  rw [← splitScheme_iff] at hs
  have hn : splitNetloc env rest = .ok ([], rest) := by
    unfold splitNetloc
    split
    · next r => exact absurd rfl (h r)
    · rfl
  unfold urlsplit
  rw [← hc]
  simp only [hs, hn, ok_bind]
  exact ⟨_, rfl, rfl⟩

theorem cleaned_total (s : List Char) : ∃ t, Cleaned s t := ⟨_, cleaned_iff.mpr rfl⟩

theorem cleaned_unique {s t t' : List Char} (h : Cleaned s t) (h' : Cleaned s t') : t = t' := by
  rw [cleaned_iff] at h h'
  rw [h, h']

theorem parseOrigin_valueError_iff {env : Env} {s : String} :
    parseOrigin env s = .error .valueError ↔ UrlRaises env s := by
  unfold parseOrigin UrlRaises
  rw [← hasSchemeSep_iff]
  by_cases hsep : hasSchemeSep s.toList = true
  swap
  · simp [hsep, raise]
  simp only [hsep, Bool.not_true, Bool.false_eq_true, if_false, true_and]
  obtain ⟨text, hc⟩ := cleaned_total s.toList
  have hs := splitScheme_sound (t := text)
  generalize splitScheme text = p at hs
  obtain ⟨scheme, rest⟩ := p
  simp only at hs
  by_cases hr : ∃ r, rest = '/' :: '/' :: r
  swap
  · obtain ⟨u, hu, hn⟩ := urlsplit_no_netloc (env := env) hc hs fun r h => hr ⟨r, h⟩
    rw [hu, ok_bind, hn]
    constructor
    · intro h
      simp only [if_true, raise] at h
      split at h <;> cases h
    · rintro ⟨text', scheme', netloc, tail, hc', hs', -⟩
      rw [cleaned_unique hc' hc, ← splitScheme_iff, splitScheme_iff.mpr hs] at hs'
      exact absurd ⟨_, (Prod.ext_iff.mp hs').2⟩ hr
  obtain ⟨r, rfl⟩ := hr
  obtain ⟨netloc, tail, rfl, h1, h2⟩ := netloc_split r
  obtain ⟨hbad, hok⟩ := urlsplit_netloc (env := env) hc hs h1 h2
  have huniq : ∀ {text' scheme' netloc' tail' : List Char}, Cleaned s.toList text' →
      SchemeSplit text' scheme' ('/' :: '/' :: netloc' ++ tail') →
      (∀ c ∈ netloc', c ≠ '/' ∧ c ≠ '?' ∧ c ≠ '#') →
      (∀ c, tail'.head? = some c → c = '/' ∨ c = '?' ∨ c = '#') →
      scheme' = scheme ∧ netloc' = netloc ∧ tail' = tail := by
    intro text' scheme' netloc' tail' h3 h4 h5 h6
    rw [cleaned_unique h3 hc, ← splitScheme_iff, splitScheme_iff.mpr hs] at h4
    obtain ⟨e1, e2⟩ := Prod.ext_iff.mp h4
    simp only [List.cons_append, List.cons.injEq, true_and] at e1 e2
    obtain ⟨e3, e4⟩ := netloc_split_unique e2 h1 h2 h5 h6
    exact ⟨e1.symm, e3.symm, e4.symm⟩
  by_cases hn : NetlocOk env netloc
  swap
  · rw [hbad hn, error_bind]
    exact iff_of_true rfl ⟨text, scheme, netloc, tail, hc, hs, h1, h2, Or.inl hn⟩
  rw [hok hn, ok_bind]
  simp only
  have ht := tail_iff h2
  constructor
  · intro h
    split_ifs at h with g1 g2 g3
    · cases h
    · cases h
    · cases h
    · rw [bind_error_iff] at h
      rcases h with h | ⟨_, -, h⟩
      swap
      · cases h
      refine ⟨text, scheme, netloc, tail, hc, hs, h1, h2, Or.inr ⟨g2, ?_, ht.mp ?_,
        urlPort_error_iff.mp h⟩⟩
      · simp only [ne_eq, Bool.and_eq_true, decide_eq_true_eq, not_and, not_not] at g3
        by_cases g4 : scheme = "http".toList
        · exact Or.inl g4
        · exact Or.inr (g3 g4)
      · simp only [ne_eq, Bool.or_eq_true, decide_eq_true_eq, not_or, not_not] at g1
        exact ⟨g1.1.1, g1.1.2, g1.2⟩
  · rintro ⟨text', scheme', netloc', tail', h3, h4, h5, h6, h7⟩
    obtain ⟨rfl, rfl, rfl⟩ := huniq h3 h4 h5 h6
    rcases h7 with h7 | ⟨g2, g3, g1, h7⟩
    · exact absurd hn h7
    · obtain ⟨e1, e2, e3⟩ := ht.mpr g1
      rw [if_neg (by simp [e1, e2, e3]), if_neg g2,
        if_neg (by rcases g3 with g3 | g3 <;> simp [g3]), urlPort_error_iff.mpr h7, error_bind]

theorem parseOrigin_error_iff {env : Env} {s : String} {x : Exc} :
    parseOrigin env s = .error x ↔ OriginRefused env s x := by
  constructor
  · intro h
    rcases raises_parseOrigin env s x h with rfl | rfl
    · refine .notOrigin ?_ ?_
      · rw [← parseOrigin_valueError_iff, h]
        simp
      · intro o
        rw [← parseOrigin_ok_iff, h]
        simp
    · exact .raises (parseOrigin_valueError_iff.mp h)
  · intro h
    cases h with
    | raises h => exact parseOrigin_valueError_iff.mpr h
    | notOrigin h1 h2 =>
      cases hp : parseOrigin env s with
      | ok o => exact absurd (parseOrigin_ok_iff.mp hp) (h2 o)
      | error e =>
        rcases raises_parseOrigin env s e hp with rfl | rfl
        · rfl
        · exact absurd (parseOrigin_valueError_iff.mp hp) h1

theorem mapM_error_iff {α β : Type} {f : α → Py β} {l : List α} {x : Exc} :
    l.mapM f = .error x ↔ ∃ pre a post, l = pre ++ a :: post ∧ (∀ t ∈ pre, ∃ b, f t = .ok b) ∧
      f a = .error x := by
  induction l with
  | nil =>
    rw [List.mapM_nil, pure_eq_ok]
    simp
  | cons a l ih =>
    rw [List.mapM_cons]
    simp only [bind_error_iff, ih, pure_eq_ok, reduceCtorEq, and_false, exists_false, or_false]
    constructor
    · rintro (h | ⟨b, hb, pre, a', post, rfl, h1, h2⟩)
      · exact ⟨[], a, l, rfl, by simp, h⟩
      · exact ⟨a :: pre, a', post, rfl, by simpa using ⟨⟨b, hb⟩, h1⟩, h2⟩
    · rintro ⟨pre, a', post, h, h1, h2⟩
      cases pre with
      | nil => cases h; exact Or.inl h2
      | cons p pre =>
        cases h
        obtain ⟨b, hb⟩ := h1 a (by simp)
        exact Or.inr ⟨b, hb, pre, a', post, rfl, fun t ht => h1 t (by simp [ht]), h2⟩

theorem extractAllowedOrigins_error_iff {env : Env} {e : ExpectedOrigin} {x : Exc} :
    extractAllowedOrigins env e = .error x ↔ ExpectedRefused env e x := by
  have hl : extractAllowedOrigins env e = .error x ↔
      (originList e = [] ∧ x = .lib .origin) ∨ (originList e).mapM (parseOrigin env) = .error x := by
    cases e with
    | one s =>
      simp only [extractAllowedOrigins, originList, List.mapM_cons, List.mapM_nil, bind_error_iff,
        pure_eq_ok]
      simp
    | many l =>
      simp only [extractAllowedOrigins, originList, bind_error_iff, require_error_iff,
        require_ok_iff]
      cases l with
      | nil => simp [pure_eq_ok]
      | cons a l => simp
  rw [hl, mapM_error_iff]
  simp only [parseOrigin_ok_iff, parseOrigin_error_iff]
  constructor
  · rintro (⟨h, rfl⟩ | ⟨pre, s, post, h1, h2, h3⟩)
    · exact .empty h
    · exact .bad pre s post x h1 h2 h3
  · intro h
    cases h with
    | empty h => exact Or.inl ⟨h, rfl⟩
    | bad pre s post _ h1 h2 h3 => exact Or.inr ⟨pre, s, post, h1, h2, h3⟩

end WebAuthn
