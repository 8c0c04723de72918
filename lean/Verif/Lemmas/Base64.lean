import Mathlib.Data.Nat.Bitwise
import Verif.Spec.Base64
import Verif.Model.Base64
import Verif.Lemmas.BigEndian
import Verif.Lemmas.Py

/-!
# base64: the decoder against the specification
-/

namespace WebAuthn

open Spec Base64

set_option maxRecDepth 8000 in
theorem decChar_table : ∀ n < 128, decChar (Char.ofNat n) = sextetStd (Char.ofNat n) := by decide

theorem decChar_eq (c : Char) : decChar c = sextetStd c := by
  by_cases h : c.toNat < 128
  · have := decChar_table c.toNat h
    rwa [Char.ofNat_toNat] at this
  · have h1 : decChar c = none := by
      unfold decChar
      simp only
      repeat rw [if_neg (by omega)]
    have h2 : sextetStd c = none := by
      unfold sextetStd
      rw [List.idxOf?_eq_none_iff]
      intro hc
      have : ∀ d ∈ stdAlphabet, d.toNat < 128 := by decide
      exact h (this c hc)
    rw [h1, h2]

set_option maxRecDepth 8000 in
theorem fromUrl_table : ∀ n < 128,
    sextetStd (fromUrlChar (Char.ofNat n)) = sextetUrl (Char.ofNat n) := by decide

theorem fromUrl_eq (c : Char) : sextetStd (fromUrlChar c) = sextetUrl c := by
  by_cases h : c.toNat < 128
  · have := fromUrl_table c.toNat h
    rwa [Char.ofNat_toNat] at this
  · have h1 : fromUrlChar c = c := by
      unfold fromUrlChar
      rw [if_neg (by rintro rfl; exact h (by decide)), if_neg (by rintro rfl; exact h (by decide))]
    have h2 : ∀ l : List Char, (∀ d ∈ l, d.toNat < 128) → l.idxOf? c = none := by
      intro l hl
      rw [List.idxOf?_eq_none_iff]
      intro hc
      exact h (hl c hc)
    rw [h1, sextetStd, sextetUrl, h2 stdAlphabet (by decide), h2 urlAlphabet (by decide)]
    rfl

theorem sextetStd_lt {c : Char} {v : Nat} (h : sextetStd c = some v) : v < 64 := by
  unfold sextetStd at h
  rw [List.idxOf?, List.findIdx?_eq_some_iff_getElem] at h
  exact h.1

theorem sextetStd_pad : sextetStd '=' = none := by decide

theorem value64_snoc (v : List Nat) (x : Nat) : value64 (v ++ [x]) = 64 * value64 v + x := by
  simp [value64]

theorem beNat_inj {a b : Bytes} (hl : a.length = b.length) (h : beNat a = beNat b) : a = b := by
  induction a using List.reverseRecOn generalizing b with
  | nil => simpa using hl.symm
  | append_singleton a x ih =>
    rcases List.eq_nil_or_concat b with rfl | ⟨b', y, rfl⟩
    · simp at hl
    · rw [List.concat_eq_append] at *
      rw [beNat_snoc, beNat_snoc] at h
      have hx := x.toNat_lt
      have hy := y.toNat_lt
      have h1 : beNat a = beNat b' := by omega
      have h2 : x.toNat = y.toNat := by omega
      rw [ih (by simpa using hl) h1, UInt8.toNat_inj.mp h2]

/-- State of the loop after reading `u`. -/
structure Inv (u : List Char) (st : St) (acc : Bytes) : Prop where
  quad : st.quad = (u.filterMap sextetStd).length % 4
  len : acc.length = 6 * (u.filterMap sextetStd).length / 8
  val : value64 (u.filterMap sextetStd) =
    beNat acc * 2 ^ (6 * (u.filterMap sextetStd).length % 8) + st.left
  left : st.left < 2 ^ (6 * (u.filterMap sextetStd).length % 8)
  pads3 : st.quad = 3 → st.pads = 0
  pads2 : st.quad = 2 → (st.pads = 0 ∨ st.pads = 1) ∧ (st.pads = 1 ↔
    ∃ a noise, u = a ++ '=' :: noise ∧ ∀ c ∈ noise, sextetStd c = none ∧ c ≠ '=')

theorem Inv.bytes {u : List Char} {st : St} {acc b : Bytes} (h : Inv u st acc) :
    BytesOfSextets (u.filterMap sextetStd) b ↔ acc = b := by
  have hdiv : value64 (u.filterMap sextetStd) / 2 ^ (6 * (u.filterMap sextetStd).length % 8) =
      beNat acc := by
    rw [h.val, Nat.mul_comm, Nat.mul_add_div (Nat.pow_pos (by decide)), Nat.div_eq_of_lt h.left, Nat.add_zero]
  unfold BytesOfSextets
  rw [hdiv, bigEndian_iff]
  constructor
  · rintro ⟨h1, h2⟩
    exact beNat_inj (by rw [h.len, h1]) h2
  · rintro rfl
    exact ⟨h.len, rfl⟩

theorem Inv.nil : Inv [] ⟨0, 0, 0⟩ [] := by
  constructor <;> simp [value64, beNat]

/-- A character outside the alphabet. -/
theorem Inv.noise {u : List Char} {st : St} {acc : Bytes} (h : Inv u st acc) {c : Char}
    (hc : sextetStd c = none) (he : c ≠ '=') : Inv (u ++ [c]) st acc := by
  have hf : (u ++ [c]).filterMap sextetStd = u.filterMap sextetStd := by
    simp [List.filterMap_append, hc]
  refine ⟨by rw [hf]; exact h.quad, by rw [hf]; exact h.len, by rw [hf]; exact h.val,
    by rw [hf]; exact h.left, h.pads3, fun h2 => ⟨(h.pads2 h2).1, ?_⟩⟩
  rw [(h.pads2 h2).2]
  constructor
  · rintro ⟨a, noise, rfl, hn⟩
    refine ⟨a, noise ++ [c], by simp, ?_⟩
    intro d hd
    rcases List.mem_append.mp hd with hd | hd
    · exact hn d hd
    · rw [List.mem_singleton.mp hd]; exact ⟨hc, he⟩
  · rintro ⟨a, noise, hu, hn⟩
    rcases List.eq_nil_or_concat noise with rfl | ⟨n', d, rfl⟩
    · exact absurd (List.append_inj_right' hu rfl) (by simp [he])
    · rw [List.concat_eq_append, ← List.cons_append, ← List.append_assoc] at hu
      obtain ⟨h1, h3⟩ := List.append_inj' hu rfl
      exact ⟨a, n', h1, fun x hx => hn x (by simp [hx])⟩

/-- A pad character that does not end the input. -/
theorem Inv.pad {u : List Char} {st : St} {acc : Bytes} (h : Inv u st acc)
    (hs : ¬ (st.quad ≥ 2 ∧ st.quad + (st.pads + 1) ≥ 4)) :
    Inv (u ++ ['=']) { st with pads := if st.quad ≥ 2 then st.pads + 1 else st.pads } acc := by
  have hf : (u ++ ['=']).filterMap sextetStd = u.filterMap sextetStd := by
    simp [List.filterMap_append, sextetStd_pad]
  refine ⟨by rw [hf]; exact h.quad, by rw [hf]; exact h.len, by rw [hf]; exact h.val,
    by rw [hf]; exact h.left, ?_, ?_⟩
  · intro h3
    simp only at h3
    omega
  · intro h2
    simp only at h2
    have h0 : st.pads = 0 := by omega
    have h1 : (if st.quad ≥ 2 then st.pads + 1 else st.pads) = 1 := by
      rw [if_pos (by omega)]; omega
    exact ⟨Or.inr h1, fun _ => ⟨u, [], rfl, by simp⟩, fun _ => h1⟩

theorem Inv.stops_iff {u : List Char} {st : St} {acc : Bytes} (h : Inv u st acc) :
    Stops sextetStd u ↔ st.quad ≥ 2 ∧ st.quad + (st.pads + 1) ≥ 4 := by
  unfold Stops
  rw [← h.quad]
  have hq : st.quad < 4 := by rw [h.quad]; omega
  constructor
  · rintro (h3 | ⟨h2, ha⟩)
    · omega
    · have := (h.pads2 h2).2.mpr ha
      omega
  · rintro ⟨h2, h4⟩
    by_cases h3 : st.quad = 3
    · exact Or.inl h3
    · have h2' : st.quad = 2 := by omega
      refine Or.inr ⟨h2', (h.pads2 h2').2.mp ?_⟩
      have := (h.pads2 h2').1
      omega

/-- A data character. -/
theorem Inv.data {u : List Char} {st : St} {acc : Bytes} (h : Inv u st acc) {c : Char} {v : Nat}
    (hc : sextetStd c = some v) :
    (st.quad = 0 → Inv (u ++ [c]) ⟨1, v, 0⟩ acc) ∧
    (st.quad = 1 → Inv (u ++ [c]) ⟨2, v % 16, 0⟩ (acc ++ [UInt8.ofNat (st.left * 4 + v / 16)])) ∧
    (st.quad = 2 → Inv (u ++ [c]) ⟨3, v % 4, 0⟩ (acc ++ [UInt8.ofNat (st.left * 16 + v / 4)])) ∧
    (st.quad = 3 → Inv (u ++ [c]) ⟨0, 0, 0⟩ (acc ++ [UInt8.ofNat (st.left * 64 + v)])) := by
  have hv := sextetStd_lt hc
  have hf : (u ++ [c]).filterMap sextetStd = u.filterMap sextetStd ++ [v] := by
    simp [List.filterMap_append, hc]
  have hlast : ¬ ∃ a noise, u ++ [c] = a ++ '=' :: noise ∧
      ∀ c ∈ noise, sextetStd c = none ∧ c ≠ '=' := by
    rintro ⟨a, noise, hu, hn⟩
    rcases List.eq_nil_or_concat noise with rfl | ⟨n', d, rfl⟩
    · have := (List.append_inj' hu rfl).2
      simp only [List.cons.injEq, and_true] at this
      rw [this, sextetStd_pad] at hc
      cases hc
    · rw [List.concat_eq_append, ← List.cons_append, ← List.append_assoc] at hu
      have := (List.append_inj' hu rfl).2
      simp only [List.cons.injEq, and_true] at this
      have h1 := (hn d (by simp)).1
      rw [← this, hc] at h1
      cases h1
  obtain ⟨hq, hl, hval, hleft, -, -⟩ := h
  generalize hL : (u.filterMap sextetStd).length = L at *
  refine ⟨fun h0 => ?_, fun h1 => ?_, fun h2 => ?_, fun h3 => ?_⟩
  · obtain ⟨m, rfl⟩ : ∃ m, L = 4 * m := ⟨L / 4, by omega⟩
    have e1 : 6 * (4 * m) % 8 = 0 := by omega
    have e2 : 6 * (4 * m + 1) % 8 = 6 := by omega
    rw [e1] at hval hleft
    constructor
    · rw [hf, List.length_append, hL]; simp
    · rw [hf, List.length_append, hL, hl]; simp; omega
    · rw [hf, List.length_append, hL, value64_snoc, hval, List.length_singleton, e2]
      show _ = _ + v
      omega
    · rw [hf, List.length_append, hL, List.length_singleton, e2]; simpa using hv
    · simp
    · simp
  · obtain ⟨m, rfl⟩ : ∃ m, L = 4 * m + 1 := ⟨L / 4, by omega⟩
    have e1 : 6 * (4 * m + 1) % 8 = 6 := by omega
    have e2 : 6 * (4 * m + 1 + 1) % 8 = 4 := by omega
    rw [e1] at hval hleft
    have ht : (UInt8.ofNat (st.left * 4 + v / 16)).toNat = st.left * 4 + v / 16 := by
      rw [UInt8.toNat_ofNat']; omega
    constructor
    · rw [hf, List.length_append, hL]; simp; omega
    · rw [hf, List.length_append, List.length_append, hL, hl]; simp; omega
    · rw [hf, List.length_append, hL, value64_snoc, hval, List.length_singleton, e2, beNat_snoc, ht]
      simp; omega
    · rw [hf, List.length_append, hL, List.length_singleton, e2]; simp; omega
    · simp
    · exact fun _ => ⟨Or.inl rfl, fun h => absurd (show (0 : Nat) = 1 from h) (by decide), fun h => absurd h hlast⟩
  · obtain ⟨m, rfl⟩ : ∃ m, L = 4 * m + 2 := ⟨L / 4, by omega⟩
    have e1 : 6 * (4 * m + 2) % 8 = 4 := by omega
    have e2 : 6 * (4 * m + 2 + 1) % 8 = 2 := by omega
    rw [e1] at hval hleft
    have ht : (UInt8.ofNat (st.left * 16 + v / 4)).toNat = st.left * 16 + v / 4 := by
      rw [UInt8.toNat_ofNat']; omega
    constructor
    · rw [hf, List.length_append, hL]; simp; omega
    · rw [hf, List.length_append, List.length_append, hL, hl]; simp; omega
    · rw [hf, List.length_append, hL, value64_snoc, hval, List.length_singleton, e2, beNat_snoc, ht]
      simp; omega
    · rw [hf, List.length_append, hL, List.length_singleton, e2]; simp; omega
    · simp
    · simp
  · obtain ⟨m, rfl⟩ : ∃ m, L = 4 * m + 3 := ⟨L / 4, by omega⟩
    have e1 : 6 * (4 * m + 3) % 8 = 2 := by omega
    have e2 : 6 * (4 * m + 3 + 1) % 8 = 0 := by omega
    rw [e1] at hval hleft
    have ht : (UInt8.ofNat (st.left * 64 + v)).toNat = st.left * 64 + v := by
      rw [UInt8.toNat_ofNat']; omega
    constructor
    · rw [hf, List.length_append, hL]; simp; omega
    · rw [hf, List.length_append, List.length_append, hL, hl]; simp; omega
    · rw [hf, List.length_append, hL, value64_snoc, hval, List.length_singleton, e2, beNat_snoc, ht]
      simp; omega
    · rw [hf, List.length_append, hL, List.length_singleton, e2]; simp
    · simp
    · simp

/-- The loop on `cs` followed by `tail`, after `u` has been read. -/
theorem a2bLoop_ok_iff {tail : List Char} {endOk : Nat → Prop}
    (hend : ∀ u st acc b, Inv u st acc →
      (a2bLoop tail st acc = .ok b ↔ endOk st.quad ∧ acc = b))
    (cs : List Char) {u : List Char} {st : St} {acc b : Bytes} (h : Inv u st acc) :
    a2bLoop (cs ++ tail) st acc = .ok b ↔
      ∃ used rest, cs = used ++ rest ∧
        (∀ x y, used = x ++ '=' :: y → ¬ Stops sextetStd (u ++ x)) ∧
        (rest = [] ∧ endOk (((u ++ used).filterMap sextetStd).length % 4) ∨
          (∃ r, rest = '=' :: r) ∧ Stops sextetStd (u ++ used)) ∧
        BytesOfSextets ((u ++ used).filterMap sextetStd) b := by
  induction cs generalizing u st acc with
  | nil =>
    rw [List.nil_append, hend u st acc b h]
    constructor
    · rintro ⟨h1, h2⟩
      refine ⟨[], [], rfl, by simp, Or.inl ⟨rfl, ?_⟩, ?_⟩
      · rw [List.append_nil, ← h.quad]; exact h1
      · rw [List.append_nil]; exact h.bytes.mpr h2
    · rintro ⟨used, rest, h1, -, h3, h4⟩
      obtain ⟨rfl, rfl⟩ := List.append_eq_nil_iff.mp h1.symm
      rw [List.append_nil] at h3 h4
      refine ⟨?_, h.bytes.mp h4⟩
      rcases h3 with ⟨-, h3⟩ | ⟨⟨r, hr⟩, -⟩
      · rw [h.quad]; exact h3
      · cases hr
  | cons c cs ih =>
    -- what the right-hand side says after one more character
    have step : ∀ {st' : St} {acc' : Bytes}, (c = '=' → ¬ Stops sextetStd u) →
        Inv (u ++ [c]) st' acc' →
        (a2bLoop (cs ++ tail) st' acc' = .ok b ↔
          ∃ used rest, c :: cs = used ++ rest ∧
            (∀ x y, used = x ++ '=' :: y → ¬ Stops sextetStd (u ++ x)) ∧
            (rest = [] ∧ endOk (((u ++ used).filterMap sextetStd).length % 4) ∨
              (∃ r, rest = '=' :: r) ∧ Stops sextetStd (u ++ used)) ∧
            BytesOfSextets ((u ++ used).filterMap sextetStd) b) := by
      intro st' acc' hns h'
      rw [ih h']
      constructor
      · rintro ⟨used, rest, rfl, h2, h3, h4⟩
        refine ⟨c :: used, rest, rfl, ?_, ?_, ?_⟩
        · intro x y hxy
          cases x with
          | nil =>
            simp only [List.nil_append, List.cons.injEq] at hxy
            simpa using hns hxy.1
          | cons d x =>
            simp only [List.cons_append, List.cons.injEq] at hxy
            obtain ⟨rfl, h5⟩ := hxy
            have := h2 x y h5
            simpa using this
        · simpa using h3
        · simpa using h4
      · rintro ⟨used, rest, h1, h2, h3, h4⟩
        cases used with
        | nil =>
          exfalso
          rw [List.nil_append] at h1
          rcases h3 with ⟨h3, -⟩ | ⟨⟨r, h3⟩, h5⟩
          · rw [h3] at h1; cases h1
          · rw [h3] at h1
            simp only [List.cons.injEq] at h1
            rw [List.append_nil] at h5
            exact hns h1.1 h5
        | cons d used =>
          simp only [List.cons_append, List.cons.injEq] at h1
          obtain ⟨rfl, rfl⟩ := h1
          refine ⟨used, rest, rfl, ?_, ?_, ?_⟩
          · intro x y hxy
            have := h2 (c :: x) y (by rw [hxy]; rfl)
            simpa using this
          · simpa using h3
          · simpa using h4
    rw [List.cons_append, a2bLoop]
    by_cases he : c = '='
    · subst he
      rw [if_pos rfl]
      by_cases hs : st.quad ≥ 2 ∧ st.quad + (st.pads + 1) ≥ 4
      · rw [if_pos hs]
        have hst := h.stops_iff.mpr hs
        constructor
        · intro hb
          simp only [Except.ok.injEq] at hb
          refine ⟨[], '=' :: cs, rfl, by simp, Or.inr ⟨⟨cs, rfl⟩, by simpa using hst⟩, ?_⟩
          rw [List.append_nil]
          exact h.bytes.mpr hb
        · rintro ⟨used, rest, h1, h2, h3, h4⟩
          cases used with
          | nil =>
            rw [List.append_nil] at h4
            rw [h.bytes.mp h4]
          | cons d used =>
            simp only [List.cons_append, List.cons.injEq] at h1
            obtain ⟨rfl, rfl⟩ := h1
            exact absurd (by simpa using hst) (h2 [] used rfl)
      · rw [if_neg hs]
        exact step (fun _ hst => hs (h.stops_iff.mp hst)) (h.pad hs)
    · rw [if_neg he, decChar_eq]
      cases hc : sextetStd c with
      | none => exact step (fun h' => absurd h' he) (h.noise hc he)
      | some v =>
        obtain ⟨d0, d1, d2, d3⟩ := h.data hc
        have hq : st.quad < 4 := by rw [h.quad]; omega
        simp only
        split_ifs with q0 q1 q2
        · exact step (fun h' => absurd h' he) (d0 q0)
        · exact step (fun h' => absurd h' he) (d1 q1)
        · exact step (fun h' => absurd h' he) (d2 q2)
        · exact step (fun h' => absurd h' he) (d3 (by omega))

theorem b64decode_ok_iff {s : String} {b : Bytes} :
    b64decode s = .ok b ↔ Base64Text s b := by
  have key := a2bLoop_ok_iff (tail := []) (endOk := (· = 0)) (b := b)
    (by
      intro u st acc b _
      rw [a2bLoop]
      split_ifs with h <;> simp [h]) s.toList Inv.nil
  unfold b64decode Base64Text DecodesTo a2b
  simp only [List.append_nil, List.nil_append] at key
  by_cases ha : s.toList.all (fun c => decide (c.toNat < 128)) = true
  · rw [if_pos ha, key]
    simp only [List.all_eq_true, decide_eq_true_eq] at ha
    exact ⟨fun h => ⟨ha, h⟩, fun h => h.2⟩
  · rw [if_neg ha]
    simp only [List.all_eq_true, decide_eq_true_eq] at ha
    simp [ha]

theorem fromUrl_pad {c : Char} : fromUrlChar c = '=' ↔ c = '=' := by
  unfold fromUrlChar
  split_ifs with h1 h2
  · subst h1; decide
  · subst h2; decide
  · rfl

theorem filterMap_fromUrl (u : List Char) :
    (u.map fromUrlChar).filterMap sextetStd = u.filterMap sextetUrl := by
  rw [List.filterMap_map]
  congr 1
  funext c
  exact fromUrl_eq c

theorem stops_fromUrl (u : List Char) :
    Stops sextetStd (u.map fromUrlChar) ↔ Stops sextetUrl u := by
  unfold Stops
  rw [filterMap_fromUrl]
  refine or_congr Iff.rfl (and_congr Iff.rfl ?_)
  constructor
  · rintro ⟨a, noise, h, hn⟩
    obtain ⟨a', r, rfl, rfl, hr⟩ := List.map_eq_append_iff.mp h
    obtain ⟨c, n', rfl, hc, rfl⟩ := List.map_eq_cons_iff.mp hr
    rw [fromUrl_pad.mp hc]
    refine ⟨a', n', rfl, fun d hd => ?_⟩
    have := hn (fromUrlChar d) (List.mem_map_of_mem hd)
    rw [fromUrl_eq, Ne, fromUrl_pad] at this
    exact this
  · rintro ⟨a, noise, rfl, hn⟩
    refine ⟨a.map fromUrlChar, noise.map fromUrlChar, by simp [fromUrl_pad.mpr rfl], ?_⟩
    intro d hd
    obtain ⟨c, hc, rfl⟩ := List.mem_map.mp hd
    rw [fromUrl_eq, Ne, fromUrl_pad]
    exact hn c hc

theorem urlBase64Decode_ok_iff {s : String} {b : Bytes} :
    urlBase64Decode s = .ok b ↔ Base64UrlText s b := by
  have key := a2bLoop_ok_iff (tail := ['=', '=', '=']) (endOk := (· ≠ 1)) (b := b)
    (by
      intro u st acc b h
      have hq : st.quad < 4 := by rw [h.quad]; omega
      obtain ⟨q, l, p⟩ := st
      simp only at hq ⊢
      simp only [a2bLoop, if_true]
      rcases q with _ | _ | _ | _ | q
      · simp
      · simp
      · by_cases hp : p = 0
        · subst hp; simp
        · rw [if_pos (by omega)]; simp
      · rw [if_pos (by omega)]; simp
      · omega) (s.toList.map fromUrlChar) Inv.nil
  unfold urlBase64Decode Base64UrlText DecodesTo a2b
  have htail : ['=', '=', '='].map fromUrlChar = ['=', '=', '='] := by decide
  simp only [List.nil_append] at key
  by_cases ha : (s.toList ++ ['=', '=', '=']).all (fun c => decide (c.toNat < 128)) = true
  · simp only
    rw [if_pos ha, List.map_append, htail, key]
    simp only [List.all_eq_true, decide_eq_true_eq] at ha
    have ha' : ∀ c ∈ s.toList, c.toNat < 128 := fun c hc => ha c (List.mem_append_left _ hc)
    constructor
    · rintro ⟨used, rest, h1, h2, h3, h4⟩
      obtain ⟨used', rest', hs, rfl, rfl⟩ := List.map_eq_append_iff.mp h1
      rw [filterMap_fromUrl] at h3 h4
      rw [stops_fromUrl] at h3
      refine ⟨ha', used', rest', hs, ?_, ?_, h4⟩
      · rintro x y rfl
        have := h2 (x.map fromUrlChar) (y.map fromUrlChar) (by simp [fromUrl_pad.mpr rfl])
        rwa [stops_fromUrl] at this
      · rcases h3 with ⟨h3, h5⟩ | ⟨⟨r, h3⟩, h5⟩
        · exact Or.inl ⟨List.map_eq_nil_iff.mp h3, h5⟩
        · obtain ⟨c, n', rfl, hc, -⟩ := List.map_eq_cons_iff.mp h3
          rw [fromUrl_pad.mp hc]
          exact Or.inr ⟨⟨n', rfl⟩, h5⟩
    · rintro ⟨-, used, rest, h1, h2, h3, h4⟩
      refine ⟨used.map fromUrlChar, rest.map fromUrlChar, by rw [h1, List.map_append], ?_, ?_, ?_⟩
      · intro x y hxy
        obtain ⟨x', r, rfl, rfl, hr⟩ := List.map_eq_append_iff.mp hxy
        obtain ⟨c, y', rfl, hc, rfl⟩ := List.map_eq_cons_iff.mp hr
        rw [stops_fromUrl]
        exact h2 x' y' (by rw [fromUrl_pad.mp hc])
      · rw [filterMap_fromUrl, stops_fromUrl]
        rcases h3 with ⟨rfl, h5⟩ | ⟨⟨r, rfl⟩, h5⟩
        · exact Or.inl ⟨rfl, h5⟩
        · exact Or.inr ⟨⟨r.map fromUrlChar, by simp [fromUrl_pad.mpr rfl]⟩, h5⟩
      · rw [filterMap_fromUrl]; exact h4
  · simp only
    rw [if_neg ha]
    simp only [List.all_eq_true, decide_eq_true_eq] at ha
    constructor
    · intro h; cases h
    · rintro ⟨h, -⟩
      exfalso
      apply ha
      intro c hc
      rcases List.mem_append.mp hc with hc | hc
      · exact h c hc
      · have : ∀ d ∈ ['=', '=', '='], d.toNat < 128 := by decide
        exact this c hc

/-- Decoding fails only with `ValueError` (or a subclass). -/
theorem a2bLoop_error {cs : List Char} {st : St} {acc : Bytes} {e : Exc}
    (h : a2bLoop cs st acc = .error e) : e = .binasciiError := by
  induction cs generalizing st acc with
  | nil =>
    rw [a2bLoop] at h
    split_ifs at h
    simpa using h.symm
  | cons c cs ih =>
    rw [a2bLoop] at h
    by_cases he : c = '='
    · rw [if_pos he] at h
      split_ifs at h <;> exact ih h
    · rw [if_neg he] at h
      cases hc : decChar c with
      | none => rw [hc] at h; exact ih h
      | some v =>
        rw [hc] at h
        simp only at h
        split_ifs at h <;> exact ih h

theorem b64decode_error {s : String} {e : Exc} (h : b64decode s = .error e) :
    e.isValueError = true := by
  unfold b64decode a2b at h
  split_ifs at h
  · rw [a2bLoop_error h]; rfl
  · simp only [Except.error.injEq] at h; rw [← h]; rfl

theorem urlBase64Decode_error {s : String} {e : Exc} (h : urlBase64Decode s = .error e) :
    e.isValueError = true := by
  unfold urlBase64Decode a2b at h
  simp only at h
  split_ifs at h
  · rw [a2bLoop_error h]; rfl
  · simp only [Except.error.injEq] at h; rw [← h]; rfl

/-! ## Round trip -/

set_option maxRecDepth 8000 in
theorem enc_table : ∀ n < 64, decChar (encChar n) = some n ∧ encChar n ≠ '=' ∧
    (encChar n).toNat < 128 := by decide

theorem a2b_data {n : Nat} (hn : n < 64) (cs : List Char) (st : St) (acc : Bytes) :
    a2bLoop (encChar n :: cs) st acc =
      if st.quad = 0 then a2bLoop cs ⟨1, n, 0⟩ acc
      else if st.quad = 1 then
        a2bLoop cs ⟨2, n % 16, 0⟩ (acc ++ [UInt8.ofNat (st.left * 4 + n / 16)])
      else if st.quad = 2 then
        a2bLoop cs ⟨3, n % 4, 0⟩ (acc ++ [UInt8.ofNat (st.left * 16 + n / 4)])
      else a2bLoop cs ⟨0, 0, 0⟩ (acc ++ [UInt8.ofNat (st.left * 64 + n)]) := by
  obtain ⟨h1, h2, -⟩ := enc_table n hn
  rw [a2bLoop, if_neg h2, h1]

theorem ofNat_toNat {x : UInt8} {n : Nat} (h : n = x.toNat) : UInt8.ofNat n = x := by
  rw [h, UInt8.ofNat_toNat]

/-- The data characters of an encoding. -/
def b2aData : Bytes → List Char
  | [] => []
  | [a] => [encChar (a.toNat / 4), encChar (a.toNat % 4 * 16)]
  | [a, b] =>
    let n := a.toNat * 256 + b.toNat
    [encChar (n / 1024), encChar (n / 16 % 64), encChar (n % 16 * 4)]
  | a :: b :: c :: rest =>
    let n := (a.toNat * 256 + b.toNat) * 256 + c.toNat
    encChar (n / 262144) :: encChar (n / 4096 % 64) :: encChar (n / 64 % 64) ::
      encChar (n % 64) :: b2aData rest

/-- The padding of an encoding. -/
def b2aPads (b : Bytes) : List Char :=
  if b.length % 3 = 0 then [] else if b.length % 3 = 1 then ['=', '='] else ['=']

theorem b2a_eq (b : Bytes) : b2a b = b2aData b ++ b2aPads b := by
  induction b using b2a.induct with
  | case1 => rfl
  | case2 a => rfl
  | case3 a b => rfl
  | case4 a b c rest ih =>
    rw [b2a, b2aData, ih]
    have : b2aPads (a :: b :: c :: rest) = b2aPads rest := by
      have e : (a :: b :: c :: rest).length % 3 = rest.length % 3 := by
        simp only [List.length_cons]; omega
      unfold b2aPads
      simp only [e]
    rw [this]
    simp

theorem data_chars {b : Bytes} {c : Char} (h : c ∈ b2aData b) :
    ∃ n < 64, c = encChar n := by
  induction b using b2a.induct with
  | case1 => cases h
  | case2 a =>
    have := a.toNat_lt
    simp only [b2aData, List.mem_cons, List.not_mem_nil, or_false] at h
    rcases h with rfl | rfl
    · exact ⟨_, by omega, rfl⟩
    · exact ⟨_, by omega, rfl⟩
  | case3 a b =>
    have := a.toNat_lt
    have := b.toNat_lt
    simp only [b2aData, List.mem_cons, List.not_mem_nil, or_false] at h
    rcases h with rfl | rfl | rfl
    · exact ⟨_, by omega, rfl⟩
    · exact ⟨_, by omega, rfl⟩
    · exact ⟨_, by omega, rfl⟩
  | case4 a b d rest ih =>
    have := a.toNat_lt
    have := b.toNat_lt
    have := d.toNat_lt
    simp only [b2aData, List.mem_cons] at h
    rcases h with rfl | rfl | rfl | rfl | h
    · exact ⟨_, by omega, rfl⟩
    · exact ⟨_, by omega, rfl⟩
    · exact ⟨_, by omega, rfl⟩
    · exact ⟨_, by omega, rfl⟩
    · exact ih h

theorem data_no_pad {b : Bytes} : '=' ∉ b2aData b := by
  intro h
  obtain ⟨n, hn, he⟩ := data_chars h
  exact (enc_table n hn).2.1 he.symm

/-- Reading the data characters. -/
theorem a2b_b2aData (b : Bytes) (t : List Char) (acc : Bytes) :
    ∃ l, a2bLoop (b2aData b ++ t) ⟨0, 0, 0⟩ acc =
      a2bLoop t ⟨if b.length % 3 = 0 then 0 else b.length % 3 + 1, l, 0⟩ (acc ++ b) ∧
      (b.length % 3 = 0 → l = 0) := by
  induction b using b2a.induct generalizing acc with
  | case1 => exact ⟨0, by simp [b2aData]⟩
  | case2 a =>
    have := a.toNat_lt
    simp only [b2aData, List.cons_append, List.nil_append]
    rw [a2b_data (by omega)]
    simp only [if_true]
    rw [a2b_data (by omega)]
    simp only [Nat.one_ne_zero, if_false, if_true]
    rw [ofNat_toNat (x := a) (by omega)]
    exact ⟨_, rfl, by simp⟩
  | case3 a b =>
    have := a.toNat_lt
    have := b.toNat_lt
    simp only [b2aData, List.cons_append, List.nil_append]
    rw [a2b_data (by omega)]
    simp only [if_true]
    rw [a2b_data (by omega)]
    simp only [Nat.one_ne_zero, if_false, if_true]
    rw [a2b_data (by omega)]
    simp only [OfNat.ofNat_ne_zero, OfNat.ofNat_ne_one, if_false, if_true]
    rw [ofNat_toNat (x := a) (by omega), ofNat_toNat (x := b) (by omega), List.append_assoc]
    exact ⟨_, rfl, by simp⟩
  | case4 a b d rest ih =>
    have := a.toNat_lt
    have := b.toNat_lt
    have := d.toNat_lt
    simp only [b2aData, List.cons_append]
    rw [a2b_data (by omega)]
    simp only [if_true]
    rw [a2b_data (by omega)]
    simp only [Nat.one_ne_zero, if_false, if_true]
    rw [a2b_data (by omega)]
    simp only [OfNat.ofNat_ne_zero, OfNat.ofNat_ne_one, if_false, if_true]
    rw [a2b_data (by omega)]
    simp only [OfNat.ofNat_ne_zero, OfNat.ofNat_ne_one, if_false, Nat.reduceEqDiff]
    rw [ofNat_toNat (x := a) (by omega), ofNat_toNat (x := b) (by omega),
      ofNat_toNat (x := d) (by omega)]
    obtain ⟨l, h1, h2⟩ := ih (acc ++ [a] ++ [b] ++ [d])
    have e : (a :: b :: d :: rest).length % 3 = rest.length % 3 := by
      simp only [List.length_cons]; omega
    rw [h1, e]
    exact ⟨l, by simp, h2⟩

/-- Standard decoding of an encoding. -/
theorem a2b_b2a (b : Bytes) : a2b (b2a b) = .ok b := by
  obtain ⟨l, h1, h2⟩ := a2b_b2aData b (b2aPads b) []
  rw [a2b, b2a_eq, h1, List.nil_append]
  unfold b2aPads
  have : b.length % 3 < 3 := by omega
  split_ifs with h3 h4
  · simp [a2bLoop]
  · rw [h4]; simp [a2bLoop]
  · rw [show b.length % 3 = 2 by omega]; simp [a2bLoop]

theorem b64decode_b64encode (b : Bytes) : b64decode (b64encode b) = .ok b := by
  unfold b64decode b64encode
  rw [String.toList_ofList, if_pos, a2b_b2a]
  rw [List.all_eq_true]
  intro c hc
  rw [decide_eq_true_eq]
  rw [b2a_eq, List.mem_append] at hc
  rcases hc with hc | hc
  · obtain ⟨n, hn, rfl⟩ := data_chars hc
    exact (enc_table n hn).2.2
  · have : c = '=' := by
      unfold b2aPads at hc
      split_ifs at hc <;> simp at hc <;> exact hc
    subst this
    decide

theorem pads_ok (k : Nat) (q l : Nat) (hq : q = 0 ∨ q = 2 ∨ q = 3) (acc : Bytes) :
    a2bLoop (List.replicate k '=' ++ ['=', '=', '=']) ⟨q, l, 0⟩ acc = .ok acc := by
  rcases hq with rfl | rfl | rfl
  · induction k with
    | zero => simp [a2bLoop]
    | succ k ih =>
      rw [List.replicate_succ, List.cons_append, a2bLoop]
      simpa using ih
  · rcases k with _ | _ | k
    · simp [a2bLoop]
    · simp [a2bLoop]
    · simp [List.replicate_succ, a2bLoop]
  · rcases k with _ | k
    · simp [a2bLoop]
    · simp [List.replicate_succ, a2bLoop]

set_option maxRecDepth 8000 in
theorem fromUrl_toUrl_table : ∀ n < 64, fromUrlChar (toUrlChar (encChar n)) = encChar n ∧
    (toUrlChar (encChar n)).toNat < 128 ∧ toUrlChar (encChar n) ≠ '=' ∧
    toUrlChar (encChar n) ∈ urlAlphabet := by decide

/-- The URL-safe data characters of an encoding. -/
def urlData (b : Bytes) : List Char := (b2aData b).map toUrlChar

theorem urlEncode_eq (b : Bytes) :
    (urlBase64Encode b).toList = urlData b ++ b2aPads b := by
  unfold urlBase64Encode urlData
  rw [String.toList_ofList, b2a_eq, List.map_append]
  congr 1
  unfold b2aPads
  split_ifs <;> decide

theorem urlData_mem {b : Bytes} {c : Char} (h : c ∈ urlData b) :
    c ∈ urlAlphabet ∧ c.toNat < 128 ∧ c ≠ '=' := by
  obtain ⟨d, hd, rfl⟩ := List.mem_map.mp h
  obtain ⟨n, hn, rfl⟩ := data_chars hd
  obtain ⟨-, h1, h2, h3⟩ := fromUrl_toUrl_table n hn
  exact ⟨h3, h1, h2⟩

theorem urlData_fromUrl (b : Bytes) : (urlData b).map fromUrlChar = b2aData b := by
  unfold urlData
  rw [List.map_map]
  conv_rhs => rw [← List.map_id (b2aData b)]
  apply List.map_congr_left
  intro c hc
  obtain ⟨n, hn, rfl⟩ := data_chars hc
  exact (fromUrl_toUrl_table n hn).1

/-- Decoding with any amount of padding. -/
theorem urlDecode_data (b : Bytes) (k : Nat) :
    urlBase64Decode (String.ofList (urlData b ++ List.replicate k '=')) = .ok b := by
  unfold urlBase64Decode
  simp only
  rw [String.toList_ofList, if_pos, List.map_append, List.map_append, urlData_fromUrl,
    List.map_replicate, List.append_assoc]
  · obtain ⟨l, h1, h2⟩ := a2b_b2aData b (List.replicate k '=' ++ ['=', '=', '=']) []
    have e1 : fromUrlChar '=' = '=' := by decide
    have e2 : ['=', '=', '='].map fromUrlChar = ['=', '=', '='] := by decide
    rw [a2b, e1, e2, h1, List.nil_append]
    apply pads_ok
    split_ifs <;> omega
  · rw [List.all_eq_true]
    intro c hc
    rw [decide_eq_true_eq]
    rw [List.mem_append, List.mem_append] at hc
    rcases hc with (hc | hc) | hc
    · exact (urlData_mem hc).2.1
    · rw [(List.mem_replicate.mp hc).2]; decide
    · have : ∀ d ∈ ['=', '=', '='], d.toNat < 128 := by decide
      exact this c hc

end WebAuthn
