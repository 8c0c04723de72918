import Verif.Lemmas.Page
import Verif.Spec.PageExact

/-!
# What the page does to texts and options, exactly (C74)
-/

namespace WebAuthn.Flask

open WebAuthn WebAuthn.Spec WebAuthn.Base64 Page

/-! ## `atob` -/

theorem isSpace_iff (c : Char) : isSpace c = true ↔ c ∈ asciiWhiteSpace := by
  have h : ∀ d : Char, c = d ↔ c.toNat = d.toNat := fun d =>
    ⟨fun e => by rw [e], fun e => Char.toNat_inj.mp e⟩
  unfold isSpace asciiWhiteSpace
  simp only [decide_eq_true_eq, List.mem_cons, List.not_mem_nil, or_false, h]
  exact Iff.rfl

theorem numbers_some_iff {s : List Char} {ns : List Nat} :
    numbers s = some ns ↔ s.map stdAlphabet.idxOf? = ns.map some := by
  induction s generalizing ns with
  | nil =>
    cases ns with
    | nil => simp [numbers]
    | cons n ns => simp [numbers]
  | cons c cs ih =>
    have hd : decChar c = stdAlphabet.idxOf? c := decChar_eq c
    rw [numbers, hd, List.map_cons]
    cases hc : stdAlphabet.idxOf? c with
    | none =>
      cases ns with
      | nil => simp
      | cons n ns => simp
    | some n =>
      cases hn : numbers cs with
      | none =>
        cases ns with
        | nil => simp
        | cons m ms =>
          have := ih (ns := ms)
          rw [hn] at this
          simp only [reduceCtorEq, false_iff] at this
          simp [this]
      | some ks =>
        cases ns with
        | nil => simp
        | cons m ms =>
          have h1 := ih (ns := ms)
          rw [hn, Option.some.injEq] at h1
          simp [h1]

theorem stripPads_iff {s d : List Char} (hd : '=' ∉ d) :
    stripPads s = d ↔ ∃ pad, s = d ++ List.replicate pad '=' ∧
      (pad = 0 ∨ pad ≤ 2 ∧ (d.length + pad) % 4 = 0) := by
  constructor
  · intro h
    unfold stripPads at h
    split_ifs at h with hl
    · split at h
      · rename_i r e
        have e : s = r.reverse ++ ['=', '='] := by
          rw [← List.reverse_reverse s, e]; simp
        subst e
        subst h
        exact ⟨2, by simp [List.replicate_succ], Or.inr ⟨le_refl _, by simpa using hl⟩⟩
      · rename_i r _ e
        have e : s = r.reverse ++ ['='] := by
          rw [← List.reverse_reverse s, e]; simp
        subst e
        subst h
        exact ⟨1, by simp, Or.inr ⟨by omega, by simpa using hl⟩⟩
      · exact ⟨0, by simpa using h, Or.inl rfl⟩
    · exact ⟨0, by simpa using h, Or.inl rfl⟩
  · rintro ⟨pad, rfl, h⟩
    have hd' : ∀ c ∈ d, c ≠ '=' := fun c hc e => hd (e ▸ hc)
    rcases h with rfl | ⟨h1, h2⟩
    · by_cases hl : d.length % 4 = 0
      · exact stripPads_append hd' (by omega) (by simpa using hl)
      · unfold stripPads
        rw [if_neg (by simpa using hl)]
        simp
    · exact stripPads_append hd' h1 h2

theorem quads_value (v : List Nat) (hv : ∀ n ∈ v, n < 64) :
    (quads v).length = 6 * v.length / 8 ∧
      beNat (quads v) = value64 v / 2 ^ (6 * v.length % 8) := by
  induction v using quads.induct with
  | case1 a b c d rest ih =>
    have h1 : a < 64 := hv a (by simp)
    have h2 : b < 64 := hv b (by simp)
    have h3 : c < 64 := hv c (by simp)
    have h4 : d < 64 := hv d (by simp)
    obtain ⟨i1, i2⟩ := ih fun m hm => hv m (by simp [hm])
    obtain ⟨n, hn⟩ : ∃ n, n = ((a * 64 + b) * 64 + c) * 64 + d := ⟨_, rfl⟩
    have e : quads (a :: b :: c :: d :: rest) =
        [UInt8.ofNat (n / 65536), UInt8.ofNat (n / 256 % 256), UInt8.ofNat (n % 256)] ++ quads rest := by
      rw [quads]; simp [hn]
    have e1 : value64 (a :: b :: c :: d :: rest) = n * 64 ^ rest.length + value64 rest := by
      rw [show a :: b :: c :: d :: rest = [a, b, c, d] ++ rest from rfl, value64_append]
      congr 1
      congr 1
      simp [value64]; omega
    have e2 : beNat [UInt8.ofNat (n / 65536), UInt8.ofNat (n / 256 % 256), UInt8.ofNat (n % 256)] = n := by
      simp [beNat, UInt8.toNat_ofNat']; omega
    have e3 : 6 * (a :: b :: c :: d :: rest).length % 8 = 6 * rest.length % 8 := by simp; omega
    have e4 : 64 ^ rest.length = 2 ^ (6 * rest.length % 8) * 256 ^ (6 * rest.length / 8) := by
      rw [show 64 = 2 ^ 6 from rfl, show 256 = 2 ^ 8 from rfl, ← pow_mul, ← pow_mul, ← pow_add]
      congr 1
      omega
    refine ⟨by rw [e]; simp [i1]; omega, ?_⟩
    rw [e, beNat_append, e1, e2, e3, i1, i2, e4]
    rw [show n * (2 ^ (6 * rest.length % 8) * 256 ^ (6 * rest.length / 8)) + value64 rest =
      2 ^ (6 * rest.length % 8) * (n * 256 ^ (6 * rest.length / 8)) + value64 rest by ring,
      Nat.mul_add_div (Nat.two_pow_pos _)]
  | case2 a b c =>
    have h1 : a < 64 := hv a (by simp)
    have h2 : b < 64 := hv b (by simp)
    have h3 : c < 64 := hv c (by simp)
    simp [quads, value64, beNat, UInt8.toNat_ofNat']; omega
  | case3 a b =>
    have h1 : a < 64 := hv a (by simp)
    have h2 : b < 64 := hv b (by simp)
    simp [quads, value64, beNat, UInt8.toNat_ofNat']; omega
  | case4 v h1 h2 h3 =>
    match v with
    | [] => simp [quads, value64, beNat]
    | [a] =>
      have : a < 64 := hv a (by simp)
      simp [quads, value64, beNat]; omega
    | [a, b] => exact absurd rfl (h3 a b)
    | [a, b, c] => exact absurd rfl (h2 a b c)
    | a :: b :: c :: d :: r => exact absurd rfl (h1 a b c d r)

theorem quads_iff {v : List Nat} (hv : ∀ n ∈ v, n < 64) {b : Bytes} :
    quads v = b ↔ BytesOfSextets v b := by
  obtain ⟨h1, h2⟩ := quads_value v hv
  constructor
  · rintro rfl
    exact ⟨h1, bigEndian_iff.mpr h2.symm⟩
  · rintro ⟨h3, h4⟩
    exact beNat_inj (h1.trans h3.symm) (h2.trans (bigEndian_iff.mp h4))

theorem idx_lt {data : List Char} {v : List Nat} (h : data.map stdAlphabet.idxOf? = v.map some) :
    (∀ n ∈ v, n < 64) ∧ '=' ∉ data := by
  constructor
  · intro n hn
    obtain ⟨c, -, hc⟩ := List.mem_map.mp (h ▸ List.mem_map_of_mem (f := some) hn)
    exact sextetStd_lt hc
  · intro hm
    obtain ⟨n, -, hn⟩ := List.mem_map.mp (h ▸ List.mem_map_of_mem (f := stdAlphabet.idxOf?) hm)
    exact absurd (hn.trans sextetStd_pad) (by simp)

/-- `base64decode` of the page is the forgiving-base64 decode of the Infra standard:
it throws exactly on the other texts. -/
theorem C74_atob {s : String} {b : Bytes} : Page.base64decode s = some b ↔ Atob s b := by
  have hf : (s.toList.filter fun c => !isSpace c) =
      s.toList.filter (fun c => decide (c ∉ asciiWhiteSpace)) := by
    refine List.filter_congr fun c _ => ?_
    have := isSpace_iff c
    cases h : isSpace c
    · rw [h] at this; simp at this; simp [this]
    · rw [h] at this; simp at this; simp [this]
  unfold Page.base64decode Atob
  simp only [hf]
  generalize s.toList.filter (fun c => decide (c ∉ asciiWhiteSpace)) = t
  constructor
  · intro h
    split_ifs at h with hl
    obtain ⟨v, hv, hq⟩ := Option.map_eq_some_iff.mp h
    have hv := numbers_some_iff.mp hv
    obtain ⟨h1, h2⟩ := idx_lt hv
    obtain ⟨pad, e, hp⟩ := (stripPads_iff h2).mp rfl
    exact ⟨_, pad, v, e, hp, hl, hv, (quads_iff h1).mp hq⟩
  · rintro ⟨data, pad, v, e, hp, hl, hv, hb⟩
    obtain ⟨h1, h2⟩ := idx_lt hv
    rw [(stripPads_iff h2).mpr ⟨pad, e, hp⟩, if_neg hl, numbers_some_iff.mpr hv, Option.map_some,
      (quads_iff h1).mpr hb]

/-- A text with a line break and without pads, and the two texts of the standard's
tests that only forgiving decoding takes or refuses. -/
example : Atob "AQ I\n" [1, 2] := C74_atob.mp rfl

example : Atob "ab" [105] := C74_atob.mp rfl

example (b : Bytes) : ¬ Atob "ab=" b := fun h => by cases C74_atob.mpr h

example (b : Bytes) : ¬ Atob "a\x0bb" b := fun h => by cases C74_atob.mpr h

/-! ## Options -/

theorem setIn_iff {n : String} {f : PyVal → Option PyVal} {R : PyVal → PyVal → Prop}
    (hf : ∀ v w, f v = some w ↔ R v w) {d d' : Dict} : setIn n f d = some d' ↔ Changed n R d d' := by
  induction d generalizing d' with
  | nil => simp [setIn, Changed]
  | cons kv d ih =>
    obtain ⟨k, v⟩ := kv
    rw [setIn]
    split_ifs with hk
    · rw [isKey_str] at hk
      subst hk
      rw [Option.map_eq_some_iff]
      constructor
      · rintro ⟨w, hw, rfl⟩
        exact ⟨[], v, w, d, rfl, rfl, by simp, (hf _ _).mp hw⟩
      · rintro ⟨pre, v', w, post, e, rfl, hp, hr⟩
        cases pre with
        | nil =>
          cases e
          exact ⟨w, (hf _ _).mpr hr, rfl⟩
        | cons kv pre =>
          cases e
          exact absurd rfl (hp _ List.mem_cons_self)
    · rw [isKey_str] at hk
      rw [Option.map_eq_some_iff]
      constructor
      · rintro ⟨d1, h1, rfl⟩
        obtain ⟨pre, v', w, post, rfl, rfl, hp, hr⟩ := ih.mp h1
        refine ⟨(k, v) :: pre, v', w, post, rfl, rfl, fun kv hkv => ?_, hr⟩
        rcases List.mem_cons.mp hkv with rfl | h
        · exact hk
        · exact hp kv h
      · rintro ⟨pre, v', w, post, e, rfl, hp, hr⟩
        cases pre with
        | nil =>
          cases e
          exact absurd rfl hk
        | cons kv pre =>
          cases e
          exact ⟨pre ++ (.str n, w) :: post,
            ih.mpr ⟨pre, v', w, post, rfl, rfl, fun kv h => hp kv (by simp [h]), hr⟩, rfl⟩

theorem absent_str {d : Dict} {n : String} : d.get? (.str n) = none ↔ ∀ kv ∈ d, kv.1 ≠ .str n := by
  constructor
  · intro hn kv hkv he
    induction d with
    | nil => cases hkv
    | cons kv' d ih =>
      obtain ⟨k, x⟩ := kv'
      by_cases hk : k = .str n
      · subst hk
        have := (lookup_iff (d := (.str n, x) :: d) (v := x)).mp ⟨[], _, d, rfl, .str n, by simp⟩
        rw [hn] at this
        cases this
      · have : Dict.get? ((k, x) :: d) (.str n) = Dict.get? d (.str n) := by
          rw [Dict.get?, if_neg (by rwa [isKey_str])]
        rcases List.mem_cons.mp hkv with rfl | e
        · exact hk he
        · exact ih (this ▸ hn) e
  · intro ha
    cases hg : d.get? (.str n) with
    | none => rfl
    | some v => exact absurd rfl (ha _ (lookup_mem (lookup_iff.mpr hg)))

theorem ifIn_iff {n : String} {f : PyVal → Option PyVal} {R : PyVal → PyVal → Prop}
    (hf : ∀ v w, f v = some w ↔ R v w) {d d' : Dict} :
    ifIn n f d = some d' ↔ ChangedIfThere n R d d' := by
  unfold ifIn ChangedIfThere
  cases hg : d.get? (.str n) with
  | none =>
    have ha := absent_str.mp hg
    simp only [Option.some.injEq]
    constructor
    · rintro rfl
      exact Or.inr ⟨ha, rfl⟩
    · rintro (⟨pre, v, w, post, rfl, -⟩ | ⟨-, rfl⟩)
      · exact absurd rfl (ha (.str n, v) (by simp))
      · rfl
  | some v =>
    simp only [setIn_iff hf]
    constructor
    · exact Or.inl
    · rintro (h | ⟨h, -⟩)
      · exact h
      · rw [absent_str.mpr h] at hg
        cases hg

theorem within_iff {f : Dict → Option Dict} {R : Dict → Dict → Prop}
    (hf : ∀ d d', f d = some d' ↔ R d d') (v w : PyVal) : within f v = some w ↔ Objects R v w := by
  unfold within Objects
  constructor
  · intro h
    split at h
    · obtain ⟨d', h1, rfl⟩ := Option.map_eq_some_iff.mp h
      exact ⟨_, d', rfl, rfl, (hf _ _).mp h1⟩
    · cases h
  · rintro ⟨d, d', rfl, rfl, h⟩
    simp [(hf _ _).mpr h]

theorem each_iff {f : PyVal → Option PyVal} {R : PyVal → PyVal → Prop}
    (hf : ∀ v w, f v = some w ↔ R v w) {vs ws : List PyVal} :
    each f vs = some ws ↔ List.Forall₂ R vs ws := by
  induction vs generalizing ws with
  | nil => cases ws <;> simp [each]
  | cons v vs ih =>
    rw [each]
    cases ws with
    | nil => constructor
             · intro h; split at h <;> simp at h
             · intro h; cases h
    | cons w ws =>
      rw [List.forall₂_cons, ← hf, ← ih]
      cases f v <;> cases each f vs <;> simp

theorem eachOf_iff {f : PyVal → Option PyVal} {R : PyVal → PyVal → Prop}
    (hf : ∀ v w, f v = some w ↔ R v w) (v w : PyVal) : eachOf f v = some w ↔ Arrays R v w := by
  unfold eachOf Arrays
  constructor
  · intro h
    split at h
    · obtain ⟨ws, h1, rfl⟩ := Option.map_eq_some_iff.mp h
      exact ⟨_, ws, rfl, rfl, (each_iff hf).mp h1⟩
    · cases h
  · rintro ⟨vs, ws, rfl, rfl, h⟩
    simp [(each_iff hf).mpr h]

theorem decode_iff (v w : PyVal) : decode v = some w ↔ Decoded v w := by
  unfold decode Decoded
  constructor
  · intro h
    split at h
    · obtain ⟨b, h1, rfl⟩ := Option.map_eq_some_iff.mp h
      exact ⟨_, b, rfl, rfl, C74_atob.mp h1⟩
    · cases h
  · rintro ⟨s, b, rfl, rfl, h⟩
    simp [C74_atob.mpr h]

/-- `parseCreationOptions` of any value. -/
theorem C74_creation_options {v w : PyVal} :
    Page.parseCreationOptions v = some w ↔ CreationParsed v w := by
  refine within_iff (fun d d' => setIn_iff fun v w => within_iff (fun d d' => ?_) v w) v w
  rw [Option.bind_eq_some_iff]
  exact exists_congr fun m => and_congr (ifIn_iff decode_iff)
    (ifIn_iff (within_iff fun _ _ => ifIn_iff decode_iff))

/-- `parseRequestOptions` of any value. -/
theorem C74_request_options {v w : PyVal} :
    Page.parseRequestOptions v = some w ↔ RequestParsed v w := by
  refine within_iff (fun d d' => setIn_iff fun v w => within_iff (fun d d' => ?_) v w) v w
  rw [Option.bind_eq_some_iff]
  exact exists_congr fun m => and_congr (ifIn_iff decode_iff)
    (ifIn_iff (eachOf_iff (within_iff fun _ _ => setIn_iff decode_iff)))

/-- Options without a challenge, with another member and a user. -/
example : CreationParsed
    (.dict [(.str "publicKey", .dict [(.str "rp", .str "x"), (.str "user", .dict [(.str "id", .str "AQI=")])])])
    (.dict [(.str "publicKey", .dict [(.str "rp", .str "x"), (.str "user", .dict [(.str "id", .bytes [1, 2])])])]) :=
  C74_creation_options.mp rfl

/-- Options with two allowed credentials and a transport. -/
example : RequestParsed
    (.dict [(.str "mediation", .str "optional"), (.str "publicKey", .dict [(.str "challenge", .str "AQI="),
      (.str "allowCredentials", .list [.dict [(.str "id", .str "AQ==")],
        .dict [(.str "type", .str "public-key"), (.str "id", .str "Ag")]])])])
    (.dict [(.str "mediation", .str "optional"), (.str "publicKey", .dict [(.str "challenge", .bytes [1, 2]),
      (.str "allowCredentials", .list [.dict [(.str "id", .bytes [1])],
        .dict [(.str "type", .str "public-key"), (.str "id", .bytes [2])]])])]) :=
  C74_request_options.mp rfl

/-- An allowed credential without an id. -/
example (w : PyVal) : ¬ RequestParsed (.dict [(.str "publicKey", .dict [
    (.str "allowCredentials", .list [.dict [(.str "type", .str "public-key")]])])]) w :=
  fun h => by cases C74_request_options.mpr h

end WebAuthn.Flask
