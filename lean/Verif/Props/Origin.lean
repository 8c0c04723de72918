import Verif.Lemmas.Origin

/-!
# Origins (C36, C37)
-/

namespace WebAuthn.Props

open WebAuthn WebAuthn.Spec

/-- A character of a host name in an ASCII serialisation: printable, and none of
the delimiters. -/
def HostChar (c : Char) : Prop := 32 < c.toNat ∧ c.toNat < 128 ∧ c ∉ "/?#:@[]".toList

/-- A web scheme and its default port. -/
inductive WebScheme : String → Nat → Prop
  | http : WebScheme "http" 80
  | https : WebScheme "https" 443

/-- The text `s` is the ASCII serialisation `scheme://host[:port]`; `netloc` is
the part after `://`, `p` the port it denotes. -/
def Serialises (s scheme : String) (netloc : List Char) (p : Nat) : Prop :=
  s.toList = scheme.toList ++ "://".toList ++ netloc ∧
  ∃ host dflt, WebScheme scheme dflt ∧ host ≠ [] ∧ (∀ c ∈ host, HostChar c) ∧
    (netloc = host ∧ p = dflt ∨
     ∃ digits, digits ≠ [] ∧ netloc = host ++ ':' :: digits ∧ Decimal digits p ∧ p ≤ 65535)

theorem decimal_digits {s : List Char} {n : Nat} (h : Decimal s n) :
    ∀ c ∈ s, 48 ≤ c.toNat ∧ c.toNat ≤ 57 := by
  rw [decimal_iff] at h
  intro c hc
  have := List.all_eq_true.mp h.1 c hc
  simp only [Bool.and_eq_true, decide_eq_true_eq] at this
  exact this

theorem hostChar_ne {c d : Char} (h : HostChar c) (hd : d ∈ "/?#:@[]".toList) : c ≠ d := by
  rintro rfl
  exact h.2.2 hd

theorem not_mem_of_ne {l : List Char} {d : Char} (h : ∀ c ∈ l, c ≠ d) : d ∉ l :=
  fun hm => h d hm rfl

theorem digit_ne {c d : Char} (h : 48 ≤ c.toNat ∧ c.toNat ≤ 57) (hd : d.toNat < 48 ∨ 57 < d.toNat) :
    c ≠ d := by
  rintro rfl
  omega

/-- The denotation of an ASCII serialisation. -/
theorem originOf_serialises {env : Env} {s scheme : String} {netloc : List Char} {p : Nat}
    (h : Serialises s scheme netloc p) : OriginOf env s ⟨scheme, String.ofList netloc, p⟩ := by
  obtain ⟨hs, host, dflt, hw, hne, hh, hp⟩ := h
  have hcolon : ':' ∉ host := not_mem_of_ne fun c hc => hostChar_ne (hh c hc) (by decide)
  have hat : '@' ∉ host := not_mem_of_ne fun c hc => hostChar_ne (hh c hc) (by decide)
  have hlb : '[' ∉ host := not_mem_of_ne fun c hc => hostChar_ne (hh c hc) (by decide)
  have hrb : ']' ∉ host := not_mem_of_ne fun c hc => hostChar_ne (hh c hc) (by decide)
  have hdig : ∀ digits, Decimal digits p → ∀ d : Char, (d.toNat < 48 ∨ 57 < d.toNat) →
      d ∉ digits := fun digits hd d h => not_mem_of_ne fun c hc => digit_ne (decimal_digits hd c hc) h
  -- facts about the characters of the authority
  have hchars : ∀ c ∈ netloc, 32 < c.toNat ∧ c.toNat < 128 ∧ c ≠ '/' ∧ c ≠ '?' ∧ c ≠ '#' ∧
      c ≠ '@' ∧ c ≠ '[' ∧ c ≠ ']' := by
    have h1 : ∀ c ∈ host, 32 < c.toNat ∧ c.toNat < 128 ∧ c ≠ '/' ∧ c ≠ '?' ∧ c ≠ '#' ∧
        c ≠ '@' ∧ c ≠ '[' ∧ c ≠ ']' := fun c hc =>
      ⟨(hh c hc).1, (hh c hc).2.1, hostChar_ne (hh c hc) (by decide),
        hostChar_ne (hh c hc) (by decide), hostChar_ne (hh c hc) (by decide),
        hostChar_ne (hh c hc) (by decide), hostChar_ne (hh c hc) (by decide),
        hostChar_ne (hh c hc) (by decide)⟩
    rcases hp with ⟨rfl, -⟩ | ⟨digits, -, rfl, hd, -⟩
    · exact h1
    · intro c hc
      rcases List.mem_append.mp hc with hc | hc
      · exact h1 c hc
      rcases List.mem_cons.mp hc with rfl | hc
      · decide
      · have := decimal_digits hd c hc
        exact ⟨by omega, by omega, digit_ne this (by decide), digit_ne this (by decide),
          digit_ne this (by decide), digit_ne this (by decide), digit_ne this (by decide),
          digit_ne this (by decide)⟩
  have hnl : netloc ≠ [] := by
    rcases hp with ⟨rfl, -⟩ | ⟨digits, -, rfl, -, -⟩
    · exact hne
    · simp
  have hat' : '@' ∉ netloc := not_mem_of_ne fun c hc => (hchars c hc).2.2.2.2.2.1
  have hlb' : '[' ∉ netloc := not_mem_of_ne fun c hc => (hchars c hc).2.2.2.2.2.2.1
  have hrb' : ']' ∉ netloc := not_mem_of_ne fun c hc => (hchars c hc).2.2.2.2.2.2.2
  have hport : PortOf netloc dflt p := by
    rcases hp with ⟨rfl, rfl⟩ | ⟨digits, hdne, rfl, hd, hle⟩
    · exact ⟨[], netloc, [], Or.inl ⟨rfl, rfl⟩, hat', .none _ hcolon hlb, Or.inl ⟨rfl, rfl⟩⟩
    · exact ⟨[], _, digits, Or.inl ⟨rfl, rfl⟩, hat',
        .some _ _ hcolon hlb (hdig digits hd '[' (by decide)), Or.inr ⟨hdne, hd, hle⟩⟩
  have hlist : s.toList = scheme.toList ++ ':' :: '/' :: '/' :: netloc := by
    rw [hs, List.append_assoc]; rfl
  have hsc : ∀ c ∈ scheme.toList, 32 < c.toNat := by cases hw <;> decide
  have hhead : ∃ c t, scheme.toList = c :: t := by cases hw <;> exact ⟨_, _, rfl⟩
  refine ⟨⟨_, _, hlist⟩, scheme.toList, netloc, [], ⟨[], s.toList, rfl, by simp, ?_, ?_⟩,
    Or.inl rfl, fun c hc => ⟨(hchars c hc).2.2.1, (hchars c hc).2.2.2.1, (hchars c hc).2.2.2.2.1⟩,
    hnl, ⟨by simp [hlb', hrb'], ?_, ?_⟩, ?_, String.toList_ofList, ?_⟩
  · obtain ⟨c, t, hct⟩ := hhead
    intro d hd
    rw [hlist, hct] at hd
    simp only [List.cons_append, List.head?_cons, Option.some.injEq] at hd
    subst hd
    have := hsc c (by rw [hct]; simp)
    unfold Blank
    omega
  · rw [List.append_nil, ← hlist, eq_comm, List.filter_eq_self]
    intro c hc
    rw [decide_eq_true_eq]
    have h32 : 32 < c.toNat := by
      rw [hlist] at hc
      rcases List.mem_append.mp hc with hc | hc
      · exact hsc c hc
      · simp only [List.mem_cons] at hc
        rcases hc with rfl | rfl | rfl | hc
        · decide
        · decide
        · decide
        · exact (hchars c hc).1
    refine ⟨?_, ?_, ?_⟩ <;> (rintro rfl; revert h32; decide)
  · intro pre body post he
    exact absurd (by rw [he]; simp) hlb'
  · rintro ⟨c, hc, h⟩
    have := (hchars c hc).2.1
    omega
  · show LowerCase scheme.toList scheme.toList
    unfold LowerCase
    cases hw <;> decide
  · cases hw
    · exact Or.inl ⟨rfl, hport⟩
    · exact Or.inr ⟨rfl, hport⟩

/-- C36: every origin that is accepted is an http or https origin with a
non-empty authority free of path, query and fragment markers, and a port in
range; the port is the scheme's default when the text has none. -/
theorem C36_accepted_origins {env : Env} {s : String} {o : Origin}
    (h : parseOrigin env s = .ok o) :
    (∃ dflt, WebScheme o.scheme dflt ∧ PortOf o.hostname.toList dflt o.port ∧ dflt ≤ 65535) ∧
    o.port ≤ 65535 ∧
    o.hostname ≠ "" ∧ (∀ c ∈ o.hostname.toList, c ≠ '/' ∧ c ≠ '?' ∧ c ≠ '#') ∧
    ∃ scheme tail, Cleaned s.toList (scheme ++ "://".toList ++ o.hostname.toList ++ tail) ∧
      LowerCase scheme o.scheme.toList ∧
      (tail = [] ∨ tail = ['?'] ∨ tail = ['#'] ∨ tail = ['?', '#']) := by
  rw [parseOrigin_ok_iff] at h
  obtain ⟨-, scheme, netloc, tail, hc, ht, hn, hne, -, hl, ho, hp⟩ := h
  have hp' : ∃ dflt, WebScheme o.scheme dflt ∧ PortOf netloc dflt o.port ∧ dflt ≤ 65535 := by
    rcases hp with ⟨h1, h2⟩ | ⟨h1, h2⟩
    · exact ⟨80, by rw [h1]; exact .http, h2, by decide⟩
    · exact ⟨443, by rw [h1]; exact .https, h2, by decide⟩
  have hle : o.port ≤ 65535 := by
    obtain ⟨dflt, -, ⟨_, _, _, -, -, -, h⟩, hd⟩ := hp'
    rcases h with ⟨-, h⟩ | ⟨-, -, h⟩
    · omega
    · exact h
  refine ⟨by rw [ho]; exact hp', hle, ?_, by rw [ho]; exact hn, scheme, tail, ?_, hl, ht⟩
  · intro he
    rw [he] at ho
    exact hne ho.symm
  · rw [ho]
    have : scheme ++ "://".toList ++ netloc ++ tail =
        scheme ++ ':' :: '/' :: '/' :: netloc ++ tail := by
      simp
    rw [this]
    exact hc

/-- C36, the other direction: every ASCII serialisation is accepted and yields
its parts. -/
theorem C36_serialised_origins {env : Env} {s scheme : String} {netloc : List Char} {p : Nat}
    (h : Serialises s scheme netloc p) :
    parseOrigin env s = .ok ⟨scheme, String.ofList netloc, p⟩ :=
  parseOrigin_ok_iff.mpr (originOf_serialises h)

/-- A host with a port. -/
theorem serialises_example : Serialises "https://login.example.com:8443" "https"
    "login.example.com:8443".toList 8443 :=
  ⟨by decide, "login.example.com".toList, 443, .https, by decide, by unfold HostChar; decide,
    Or.inr ⟨"8443".toList, by decide, by decide, by rw [decimal_iff]; decide, by decide⟩⟩

/-- Without a port. -/
theorem serialises_example' : Serialises "https://example.com" "https"
    "example.com".toList 443 :=
  ⟨by decide, "example.com".toList, 443, .https, by decide, by unfold HostChar; decide,
    Or.inl ⟨rfl, rfl⟩⟩

example (env : Env) : parseOrigin env "https://login.example.com:8443" =
    .ok ⟨"https", "login.example.com:8443", 8443⟩ := C36_serialised_origins serialises_example

/-- An authority followed by a path, a query or a fragment with some text is not
accepted. -/
theorem C36_no_path {env : Env} {s : String} {o : Origin} {scheme netloc tail : List Char}
    (hs : Cleaned s.toList (scheme ++ "://".toList ++ netloc ++ tail))
    (hsc : LowerCase scheme "http".toList ∨ LowerCase scheme "https".toList)
    (hn : ∀ c ∈ netloc, c ≠ '/' ∧ c ≠ '?' ∧ c ≠ '#')
    (ht : (∃ t, tail = '/' :: t) ∨ (∃ c t, tail = '?' :: c :: t ∧ (c :: t) ≠ ['#']) ∨
      (∃ c t, tail = '#' :: c :: t)) :
    parseOrigin env s ≠ .ok o := by
  intro h
  obtain ⟨-, -, -, hn', scheme', tail', hc, hl, ht'⟩ := C36_accepted_origins h
  have huniq : ∀ {s t t' : List Char}, Cleaned s t → Cleaned s t' → t = t' := by
    rintro s t t' ⟨l, r, h1, h2, h3, rfl⟩ ⟨l', r', h1', h2', h3', rfl⟩
    have hr : r = r' := by
      rw [h1] at h1'
      rcases List.append_eq_append_iff.mp h1' with ⟨x, hx, hy⟩ | ⟨x, hx, hy⟩
      · cases x with
        | nil => simpa using hy
        | cons c x =>
          exfalso
          refine h3 c (by rw [hy]; rfl) (h2' c (by rw [hx]; simp))
      · cases x with
        | nil => simpa using hy.symm
        | cons c x =>
          exfalso
          refine h3' c (by rw [hy]; rfl) (h2 c (by rw [hx]; simp))
    rw [hr]
  have heq := huniq hs hc
  -- the schemes end at the first colon
  have hnc : ∀ sc w : List Char, LowerCase sc w → ':' ∉ w → ':' ∉ sc := by
    intro sc w hlw hw hm
    apply hw
    rw [← hlw]
    exact List.mem_map.mpr ⟨':', hm, by decide⟩
  have hc1 : ':' ∉ scheme := by
    rcases hsc with hsc | hsc
    · exact hnc _ _ hsc (by decide)
    · exact hnc _ _ hsc (by decide)
  have hc2 : ':' ∉ scheme' := by
    have : ':' ∉ o.scheme.toList := by
      obtain ⟨⟨d, hw, -, -⟩, -⟩ := C36_accepted_origins h
      revert hw
      generalize o.scheme = x
      intro hw
      cases hw <;> decide
    exact hnc _ _ hl this
  have hsplit : ∀ {a b x y : List Char}, ':' ∉ a → ':' ∉ b → a ++ ':' :: x = b ++ ':' :: y →
      x = y := by
    intro a
    induction a with
    | nil =>
      intro b x y _ hb he
      cases b with
      | nil => simpa using he
      | cons c b =>
        simp only [List.nil_append, List.cons_append, List.cons.injEq] at he
        exact absurd he.1 (fun h => hb (by rw [h]; simp))
    | cons c a ih =>
      intro b x y ha hb he
      cases b with
      | nil =>
        simp only [List.nil_append, List.cons_append, List.cons.injEq] at he
        exact absurd he.1 (fun h => ha (by rw [h]; simp))
      | cons d b =>
        simp only [List.cons_append, List.cons.injEq] at he
        exact ih (fun h => ha (List.mem_cons_of_mem _ h)) (fun h => hb (List.mem_cons_of_mem _ h))
          he.2
  have he2 : netloc ++ tail = o.hostname.toList ++ tail' := by
    have h1 : scheme ++ "://".toList ++ netloc ++ tail =
        scheme ++ ':' :: '/' :: '/' :: (netloc ++ tail) := by simp
    have h2 : scheme' ++ "://".toList ++ o.hostname.toList ++ tail' =
        scheme' ++ ':' :: '/' :: '/' :: (o.hostname.toList ++ tail') := by simp
    rw [h1, h2] at heq
    simpa using hsplit hc1 hc2 heq
  have hend : ∀ {a b t t' : List Char}, (∀ c ∈ a, c ≠ '/' ∧ c ≠ '?' ∧ c ≠ '#') →
      (∀ c ∈ b, c ≠ '/' ∧ c ≠ '?' ∧ c ≠ '#') →
      (∀ c, t.head? = some c → c = '/' ∨ c = '?' ∨ c = '#') →
      (∀ c, t'.head? = some c → c = '/' ∨ c = '?' ∨ c = '#') →
      a ++ t = b ++ t' → t = t' := by
    intro a b t t' ha hb ht ht' he
    rcases List.append_eq_append_iff.mp he with ⟨x, hx, hy⟩ | ⟨x, hx, hy⟩
    · cases x with
      | nil => simpa using hy
      | cons c x =>
        exfalso
        have h1 := hb c (by rw [hx]; simp)
        have h2 := ht c (by rw [hy]; rfl)
        rcases h2 with h2 | h2 | h2
        · exact h1.1 h2
        · exact h1.2.1 h2
        · exact h1.2.2 h2
    · cases x with
      | nil => simpa using hy.symm
      | cons c x =>
        exfalso
        have h1 := ha c (by rw [hx]; simp)
        have h2 := ht' c (by rw [hy]; rfl)
        rcases h2 with h2 | h2 | h2
        · exact h1.1 h2
        · exact h1.2.1 h2
        · exact h1.2.2 h2
  have hth : ∀ c, tail.head? = some c → c = '/' ∨ c = '?' ∨ c = '#' := by
    intro c hc
    rcases ht with ⟨t, rfl⟩ | ⟨_, t, rfl, -⟩ | ⟨_, t, rfl⟩ <;>
      simp only [List.head?_cons, Option.some.injEq] at hc <;> subst hc <;> simp
  have hth' : ∀ c, tail'.head? = some c → c = '/' ∨ c = '?' ∨ c = '#' := by
    intro c hc
    rcases ht' with rfl | rfl | rfl | rfl <;>
      simp only [List.head?_cons, List.head?_nil, Option.some.injEq, reduceCtorEq] at hc <;>
      subst hc <;> simp
  have htt := hend hn hn' hth hth' he2
  subst htt
  rcases ht with ⟨t, rfl⟩ | ⟨c, t, rfl, hne⟩ | ⟨c, t, rfl⟩
  · simp at ht'
  · simp at ht'
    exact hne (by rw [ht'.1, ht'.2])
  · simp at ht'

example : ∃ scheme netloc tail, Cleaned "https://example.com/login".toList
    (scheme ++ "://".toList ++ netloc ++ tail) ∧ LowerCase scheme "https".toList ∧
    (∀ c ∈ netloc, c ≠ '/' ∧ c ≠ '?' ∧ c ≠ '#') ∧ ∃ t, tail = '/' :: t :=
  ⟨"https".toList, "example.com".toList, "/login".toList,
    ⟨[], _, rfl, by simp, by unfold Blank; decide, by decide⟩, by unfold LowerCase; decide,
    by decide, _, rfl⟩

/-- C37 is false: the default port, written out, gives a different value (the
`hostname` keeps the port, DESIGN.md F3). -/
theorem C37_equivalent_origins_refuted (env : Env) :
    ∃ s s' scheme netloc netloc' p, Serialises s scheme netloc p ∧ Serialises s' scheme netloc' p ∧
      netloc' = netloc ++ ":443".toList ∧ parseOrigin env s ≠ parseOrigin env s' := by
  have h2 : Serialises "https://example.com:443" "https" "example.com:443".toList 443 :=
    ⟨by decide, "example.com".toList, 443, .https, by decide, by unfold HostChar; decide,
      Or.inr ⟨"443".toList, by decide, by decide, by rw [decimal_iff]; decide, by decide⟩⟩
  refine ⟨_, _, _, _, _, _, serialises_example', h2, by decide, ?_⟩
  rw [C36_serialised_origins serialises_example', C36_serialised_origins h2]
  intro h
  simp only [Except.ok.injEq, Origin.mk.injEq] at h
  have := congrArg String.toList h.2.1
  revert this
  decide

/-- C37 for serialisations with the same authority text: blanks around the
scheme, letter case of the scheme and empty query or fragment markers make no
difference.  Missing against C37: explicit default ports. -/
theorem C37_equivalent_origins_partial {env : Env} {s s' : String} {o o' : Origin}
    (h : parseOrigin env s = .ok o) (h' : parseOrigin env s' = .ok o')
    (hsch : o.scheme = o'.scheme) (hhost : o.hostname = o'.hostname) : o = o' := by
  rw [parseOrigin_ok_iff] at h h'
  obtain ⟨-, _, n, _, -, -, -, -, -, -, ho, hp⟩ := h
  obtain ⟨-, _, n', _, -, -, -, -, -, -, ho', hp'⟩ := h'
  have hn : n = n' := by rw [← ho, ← ho', hhost]
  subst hn
  have hport : o.port = o'.port := by
    rcases hp with ⟨h1, h2⟩ | ⟨h1, h2⟩ <;> rcases hp' with ⟨h3, h4⟩ | ⟨h3, h4⟩
    · obtain ⟨u1, e1, f1⟩ := urlPort_ok_iff.mpr h2
      obtain ⟨u2, e2, f2⟩ := urlPort_ok_iff.mpr h4
      rw [e1] at e2; cases e2; rw [← f1, ← f2]
    · rw [h1, h3] at hsch; exact absurd hsch (by decide)
    · rw [h1, h3] at hsch; exact absurd hsch (by decide)
    · obtain ⟨u1, e1, f1⟩ := urlPort_ok_iff.mpr h2
      obtain ⟨u2, e2, f2⟩ := urlPort_ok_iff.mpr h4
      rw [e1] at e2; cases e2; rw [← f1, ← f2]
  obtain ⟨a, b, c⟩ := o
  obtain ⟨a', b', c'⟩ := o'
  simp only at hsch hhost hport
  rw [hsch, hhost, hport]

/-- The comparison of origins is that of scheme and authority text. -/
theorem C37_compared {env : Env} {s s' : String} {o o' : Origin}
    (h : parseOrigin env s = .ok o) (h' : parseOrigin env s' = .ok o') :
    o = o' ↔ o.scheme = o'.scheme ∧ o.hostname = o'.hostname :=
  ⟨fun e => e ▸ ⟨rfl, rfl⟩, fun ⟨h1, h2⟩ => C37_equivalent_origins_partial h h' h1 h2⟩

theorem serialises_inj {s s' scheme : String} {netloc : List Char} {p p' : Nat}
    (h : Serialises s scheme netloc p) (h' : Serialises s' scheme netloc p') : s = s' :=
  String.toList_inj.mp (h.1.trans h'.1.symm)

/-- Two ASCII serialisations compare equal only if they are the same text: the
comparison may refuse an equivalent origin, but never takes one origin for
another. -/
theorem C37_never_confused {env : Env} {s s' scheme scheme' : String} {netloc netloc' : List Char}
    {p p' : Nat} (h : Serialises s scheme netloc p) (h' : Serialises s' scheme' netloc' p') :
    parseOrigin env s = parseOrigin env s' ↔ s = s' := by
  refine ⟨fun e => ?_, fun e => by rw [e]⟩
  rw [C36_serialised_origins h, C36_serialised_origins h'] at e
  simp only [Except.ok.injEq, Origin.mk.injEq, String.ofList_inj] at e
  obtain ⟨rfl, rfl, -⟩ := e
  exact serialises_inj h h'

example (env : Env) : parseOrigin env "https://login.example.com:8443" ≠
    parseOrigin env "https://example.com" := by
  rw [Ne, C37_never_confused serialises_example serialises_example']
  decide

/-- For serialised origins, an origin is allowed if and only if it is listed. -/
theorem allowed_iff_listed {env : Env} {e : ExpectedOrigin} {c : String}
    (he : ∀ s ∈ originList e, ∃ scheme netloc p, Serialises s scheme netloc p)
    (hc : ∃ scheme netloc p, Serialises c scheme netloc p) :
    OriginAllowed env e c ↔ c ∈ originList e := by
  obtain ⟨scheme, netloc, p, hc⟩ := hc
  constructor
  · rintro ⟨o, ho, s, hs, hso⟩
    obtain ⟨scheme', netloc', p', hs'⟩ := he s hs
    rw [← parseOrigin_ok_iff] at ho hso
    rwa [(C37_never_confused hc hs').mp (ho.trans hso.symm)]
  · intro h
    exact ⟨_, originOf_serialises hc, c, h, originOf_serialises hc⟩

example (env : Env) : ¬ OriginAllowed env (.one "https://login.example.com:8443")
    "https://example.com" := by
  rw [allowed_iff_listed (by simpa [originList] using ⟨_, _, _, serialises_example⟩)
    ⟨_, _, _, serialises_example'⟩]
  simp [originList]

end WebAuthn.Props
