import Mathlib.Tactic.IntervalCases
import Mathlib.Tactic.Ring
import Verif.Lemmas.Base64

/-!
# base64: the encoder against RFC 4648
-/

namespace WebAuthn

open Spec Base64

theorem beNat_append (a b : Bytes) : beNat (a ++ b) = beNat a * 256 ^ b.length + beNat b := by
  induction b using List.reverseRecOn with
  | nil => simp [beNat]
  | append_singleton b x ih =>
    rw [← List.append_assoc, beNat_snoc, beNat_snoc, ih]
    simp [pow_succ]
    ring

theorem value64_append (a b : List Nat) : value64 (a ++ b) = value64 a * 64 ^ b.length + value64 b := by
  induction b using List.reverseRecOn with
  | nil => simp [value64]
  | append_singleton b x ih =>
    rw [← List.append_assoc, value64_snoc, value64_snoc, ih]
    simp [pow_succ]
    ring

/-- The 6-bit values of the encoding. -/
def sextets : Bytes → List Nat
  | [] => []
  | [a] => [a.toNat / 4, a.toNat % 4 * 16]
  | [a, b] =>
    let n := a.toNat * 256 + b.toNat
    [n / 1024, n / 16 % 64, n % 16 * 4]
  | a :: b :: c :: rest =>
    let n := (a.toNat * 256 + b.toNat) * 256 + c.toNat
    n / 262144 :: n / 4096 % 64 :: n / 64 % 64 :: n % 64 :: sextets rest

theorem sextets_lt (b : Bytes) : ∀ n ∈ sextets b, n < 64 := by
  induction b using sextets.induct with
  | case1 => simp [sextets]
  | case2 a => have := a.toNat_lt; simp [sextets]; omega
  | case3 a b => have := a.toNat_lt; have := b.toNat_lt; simp [sextets]; omega
  | case4 a b c rest ih =>
    have := a.toNat_lt; have := b.toNat_lt; have := c.toNat_lt
    simp only [sextets, List.mem_cons]
    rintro m (rfl | rfl | rfl | rfl | h)
    · omega
    · omega
    · omega
    · omega
    · exact ih m h

theorem b2aData_eq (b : Bytes) : b2aData b = (sextets b).map encChar := by
  induction b using sextets.induct with
  | case1 => rfl
  | case2 a => rfl
  | case3 a b => rfl
  | case4 a b c rest ih => simp [b2aData, sextets, ih]

theorem sextets_length (b : Bytes) : (sextets b).length = b.length + (b.length + 2) / 3 := by
  induction b using sextets.induct with
  | case1 => rfl
  | case2 a => simp [sextets]
  | case3 a b => simp [sextets]
  | case4 a b c rest ih => simp [sextets, ih]; omega

theorem sextets_value (b : Bytes) :
    value64 (sextets b) = beNat b * 2 ^ (6 * (sextets b).length % 8) := by
  induction b using sextets.induct with
  | case1 => rfl
  | case2 a =>
    have := a.toNat_lt
    simp [sextets, value64, beNat]; omega
  | case3 a b =>
    have := a.toNat_lt; have := b.toNat_lt
    simp [sextets, value64, beNat]; omega
  | case4 a b c rest ih =>
    obtain ⟨n, hn⟩ : ∃ n, n = (a.toNat * 256 + b.toNat) * 256 + c.toNat := ⟨_, rfl⟩
    have h1 : sextets (a :: b :: c :: rest) =
        [n / 262144, n / 4096 % 64, n / 64 % 64, n % 64] ++ sextets rest := by rw [hn]; rfl
    have h2 : value64 [n / 262144, n / 4096 % 64, n / 64 % 64, n % 64] = n := by
      have := a.toNat_lt; have := b.toNat_lt; have := c.toNat_lt
      simp [value64]; omega
    have h3 : beNat (a :: b :: c :: rest) = n * 256 ^ rest.length + beNat rest := by
      rw [show a :: b :: c :: rest = [a, b, c] ++ rest from rfl, beNat_append]
      simp [beNat, hn]
    have h4 : 6 * (sextets (a :: b :: c :: rest)).length % 8 = 6 * (sextets rest).length % 8 := by
      rw [h1]; simp; omega
    have h5 : 64 ^ (sextets rest).length =
        256 ^ rest.length * 2 ^ (6 * (sextets rest).length % 8) := by
      rw [show 64 = 2 ^ 6 from rfl, show 256 = 2 ^ 8 from rfl, ← pow_mul, ← pow_mul, ← pow_add]
      congr 1
      have := sextets_length rest
      omega
    rw [h4, h1, value64_append, h2, h3, ih, h5]
    ring

theorem bytesOfSextets (b : Bytes) : BytesOfSextets (sextets b) b := by
  refine ⟨by rw [sextets_length]; omega, bigEndian_iff.mpr ?_⟩
  rw [sextets_value, Nat.mul_div_cancel _ (Nat.two_pow_pos _)]

set_option maxRecDepth 8000 in
theorem idxOf_std : ∀ n < 64, stdAlphabet.idxOf? (encChar n) = some n := by decide

set_option maxRecDepth 8000 in
theorem idxOf_url : ∀ n < 64, urlAlphabet.idxOf? (toUrlChar (encChar n)) = some n := by decide

theorem b2aPads_eq (b : Bytes) : ∃ pad ≤ 2, b2aPads b = List.replicate pad '=' ∧
    ((sextets b).length + pad) % 4 = 0 := by
  rw [sextets_length]
  unfold b2aPads
  split_ifs with h1 h2
  · exact ⟨0, by omega, rfl, by omega⟩
  · exact ⟨2, le_refl _, rfl, by omega⟩
  · exact ⟨1, by omega, rfl, by omega⟩

theorem b64encode_encodes (b : Bytes) : Encodes64 stdAlphabet (b64encode b).toList b := by
  obtain ⟨pad, hp, h, hl⟩ := b2aPads_eq b
  refine ⟨b2aData b, pad, sextets b, ?_, ?_, hp, ?_, bytesOfSextets b, ?_⟩
  · simp [b64encode, b2a_eq, h]
  · rw [b2aData_eq, List.map_map]
    exact List.map_congr_left fun n hn => idxOf_std n (sextets_lt b n hn)
  · simpa [b64encode, b2a_eq, h, b2aData_eq] using hl
  · rw [sextets_value]; exact Dvd.intro_left _ rfl

theorem urlBase64Encode_encodes (b : Bytes) : Encodes64 urlAlphabet (urlBase64Encode b).toList b := by
  obtain ⟨pad, hp, h, hl⟩ := b2aPads_eq b
  refine ⟨urlData b, pad, sextets b, ?_, ?_, hp, ?_, bytesOfSextets b, ?_⟩
  · rw [urlEncode_eq, h]
  · rw [urlData, b2aData_eq, List.map_map, List.map_map]
    exact List.map_congr_left fun n hn => idxOf_url n (sextets_lt b n hn)
  · rw [urlEncode_eq, h]
    simpa [urlData, b2aData_eq] using hl
  · rw [sextets_value]; exact Dvd.intro_left _ rfl

/-! ## There is only one encoding -/

theorem value64_inj {a b : List Nat} (hl : a.length = b.length) (ha : ∀ n ∈ a, n < 64)
    (hb : ∀ n ∈ b, n < 64) (h : value64 a = value64 b) : a = b := by
  induction a using List.reverseRecOn generalizing b with
  | nil => exact (List.length_eq_zero_iff.mp hl.symm).symm
  | append_singleton a x ih =>
    rcases List.eq_nil_or_concat b with rfl | ⟨b, y, rfl⟩
    · simp at hl
    · rw [List.concat_eq_append] at *
      rw [value64_snoc, value64_snoc] at h
      have hx := ha x (by simp)
      have hy := hb y (by simp)
      rw [ih (b := b) (by simpa using hl) (fun n hn => ha n (by simp [hn]))
        (fun n hn => hb n (by simp [hn])) (by omega), show x = y by omega]

theorem idxOf_get {l : List Char} {c : Char} {n : Nat} (h : l.idxOf? c = some n) : l[n]? = some c := by
  obtain ⟨h1, h2, -⟩ := List.findIdx?_eq_some_iff_getElem.mp h
  rw [List.getElem?_eq_getElem h1]
  simpa using h2

theorem encodes_unique {alphabet s s' : List Char} {b : Bytes} (ha : alphabet.length = 64)
    (h : Encodes64 alphabet s b) (h' : Encodes64 alphabet s' b) : s = s' := by
  obtain ⟨data, pad, v, rfl, h1, h2, h3, ⟨h4, h5⟩, h6⟩ := h
  obtain ⟨data', pad', v', rfl, h1', h2', h3', ⟨h4', h5'⟩, h6'⟩ := h'
  have hlen : ∀ {data : List Char} {v : List Nat}, data.map alphabet.idxOf? = v.map some →
      data.length = v.length := fun h => by simpa using congrArg List.length h
  have hl := hlen h1
  have hl' := hlen h1'
  simp only [List.length_append, List.length_replicate] at h3 h3'
  have hv : v.length = v'.length := by
    have key : ∀ n pad, pad ≤ 2 → (n + pad) % 4 = 0 → n = 6 * n / 8 + (6 * n / 8 + 2) / 3 := by
      intro n pad h1 h2
      obtain ⟨k, r, hr, rfl⟩ : ∃ k r, r < 4 ∧ n = 4 * k + r := ⟨n / 4, n % 4, by omega, by omega⟩
      have : 6 * (4 * k + r) / 8 = 3 * k + 6 * r / 8 := by omega
      rw [this]
      interval_cases r <;> omega
    rw [← hl, ← hl', key _ _ h2 h3, key _ _ h2' h3']
    rw [hl, hl', ← h4, ← h4']
  have hp : pad = pad' := by omega
  have hlt : ∀ {data : List Char} {v : List Nat}, data.map alphabet.idxOf? = v.map some →
      ∀ n ∈ v, n < 64 := by
    intro data v h n hn
    have : some n ∈ data.map alphabet.idxOf? := by rw [h]; exact List.mem_map_of_mem hn
    obtain ⟨c, -, hc⟩ := List.mem_map.mp this
    have := (List.getElem?_eq_some_iff.mp (idxOf_get hc)).1
    omega
  have hval : value64 v = value64 v' := by
    rw [bigEndian_iff] at h5 h5'
    rw [← Nat.div_mul_cancel h6, ← Nat.div_mul_cancel h6', h5, h5', hv]
  obtain rfl := value64_inj hv (hlt h1) (hlt h1') hval
  have hd : ∀ (data data' : List Char), data.map alphabet.idxOf? = data'.map alphabet.idxOf? →
      (∀ c ∈ data, ∃ n, alphabet.idxOf? c = some n) → data = data' := by
    intro data
    induction data with
    | nil => intro data' h _; simpa using h.symm
    | cons c data ih =>
      intro data' h hs
      cases data' with
      | nil => simp at h
      | cons c' data' =>
        simp only [List.map_cons, List.cons.injEq] at h
        obtain ⟨n, hn⟩ := hs c (by simp)
        have e1 := idxOf_get hn
        have e2 := idxOf_get (h.1 ▸ hn)
        rw [e1] at e2
        rw [Option.some.inj e2, ih data' h.2 fun c hc => hs c (by simp [hc])]
  have := hd data data' (h1.trans h1'.symm) fun c hc => by
    have : alphabet.idxOf? c ∈ v.map some := by rw [← h1]; exact List.mem_map_of_mem hc
    obtain ⟨n, -, hn⟩ := List.mem_map.mp this
    exact ⟨n, hn.symm⟩
  rw [this, hp]

theorem encodes_std_iff {s : String} {b : Bytes} :
    Encodes64 stdAlphabet s.toList b ↔ s = b64encode b :=
  ⟨fun h => String.toList_inj.mp (encodes_unique (by decide) h (b64encode_encodes b)),
    fun h => h ▸ b64encode_encodes b⟩

theorem encodes_url_iff {s : String} {b : Bytes} :
    Encodes64 urlAlphabet s.toList b ↔ s = urlBase64Encode b :=
  ⟨fun h => String.toList_inj.mp (encodes_unique (by decide) h (urlBase64Encode_encodes b)),
    fun h => h ▸ urlBase64Encode_encodes b⟩

end WebAuthn
