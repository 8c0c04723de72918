import Verif.Codec.Cbor
import Verif.Lemmas.AuthData

/-!
# The codec meets the laws
-/

namespace WebAuthn.Cbor

open Spec

/-! ## Reading front to back -/

/-- A reader with fuel at most `n` consumes a definite piece of its input. -/
def Streams {α : Type} (n : Nat) (P : Nat → Bytes → Py (α × Bytes)) : Prop :=
  ∀ f b x rest, f ≤ n → P f b = .ok (x, rest) → ∃ used, b = used ++ rest ∧
    (∀ f' r, used.length ≤ f' → P f' (used ++ r) = .ok (x, r)) ∧
    (∀ f' p q, used = p ++ q → q ≠ [] → p.length ≤ f' → ∃ e, P f' p = .error e)

theorem Streams.pure {α : Type} {n : Nat} (x : α) : Streams n fun _ b => .ok (x, b) := by
  intro f b y rest hn h
  simp only [Except.ok.injEq, Prod.mk.injEq] at h
  obtain ⟨rfl, rfl⟩ := h
  refine ⟨[], rfl, fun _ _ _ => rfl, ?_⟩
  intro f' p q h hq _
  exact absurd (List.append_eq_nil_iff.mp h.symm).2 hq

theorem Streams.fail {α : Type} {n : Nat} (e : Exc) :
    Streams n fun _ _ => (.error e : Py (α × Bytes)) := by
  intro f b y rest hn h
  cases h

theorem prefix_cases {u1 u2 p q : Bytes} (h : u1 ++ u2 = p ++ q) :
    (∃ q', q' ≠ [] ∧ u1 = p ++ q') ∨ (∃ p', p = u1 ++ p' ∧ u2 = p' ++ q) := by
  rcases List.append_eq_append_iff.mp h with ⟨a, rfl, h2⟩ | ⟨a, rfl, h2⟩
  · exact Or.inr ⟨a, rfl, h2⟩
  · by_cases ha : a = []
    · subst ha
      refine Or.inr ⟨[], by simp, by simpa using h2.symm⟩
    · exact Or.inl ⟨a, ha, rfl⟩

theorem Streams.bind {α β : Type} {n : Nat} {P : Nat → Bytes → Py (α × Bytes)}
    {Q : α → Nat → Bytes → Py (β × Bytes)} (hP : Streams n P) (hQ : ∀ x, Streams n (Q x)) :
    Streams n fun f b => P f b >>= fun xb => Q xb.1 f xb.2 := by
  intro f b y rest hn h
  obtain ⟨⟨x, b'⟩, h1, h2⟩ := bind_ok_iff.mp h
  obtain ⟨u1, rfl, e1, s1⟩ := hP f b x b' hn h1
  obtain ⟨u2, rfl, e2, s2⟩ := hQ x f b' y rest hn h2
  refine ⟨u1 ++ u2, by simp, ?_, ?_⟩
  · intro f' r hf
    rw [List.length_append] at hf
    simp only [List.append_assoc, e1 f' _ (show u1.length ≤ f' by omega), ok_bind]
    exact e2 f' r (by omega)
  · intro f' p q hpq hq hf
    rcases prefix_cases hpq with ⟨q', hq', rfl⟩ | ⟨p', rfl, rfl⟩
    · obtain ⟨e, he⟩ := s1 f' p q' rfl hq' hf
      exact ⟨e, by simp only [he, error_bind]⟩
    · rw [List.length_append] at hf
      obtain ⟨e, he⟩ := s2 f' p' q rfl hq (by omega)
      exact ⟨e, by simp only [e1 f' p' (by omega), ok_bind, he]⟩

theorem streams_take (m n : Nat) : Streams m fun _ b => take n b := by
  intro f b x rest _ h
  simp only [take] at h
  split_ifs at h with hn
  simp only [Except.ok.injEq, Prod.mk.injEq] at h
  obtain ⟨rfl, rfl⟩ := h
  refine ⟨b.take n, (List.take_append_drop n b).symm, ?_, ?_⟩
  · intro f' r _
    have hl : (b.take n).length = n := by simp [hn]
    simp only [take]
    rw [if_pos (by rw [List.length_append]; omega), List.take_append_of_le_length (by omega),
      List.drop_append_of_le_length (by omega), List.take_of_length_le (by omega),
      List.drop_eq_nil_of_le (by omega)]
    rfl
  · intro f' p q hpq hq _
    have hl : (b.take n).length = n := by simp [hn]
    rw [hpq, List.length_append] at hl
    have : 0 < q.length := List.length_pos_iff.mpr hq
    refine ⟨.cborDecodeEOF, ?_⟩
    simp only [take]
    rw [if_neg (by omega)]

theorem streams_many {α : Type} {m : Nat} {dec : Nat → Bytes → Py (α × Bytes)} (h : Streams m dec)
    (n : Nat) : Streams m fun f b => many (dec f) n b := by
  induction n with
  | zero => exact Streams.pure []
  | succ n ih =>
    have h2 : ∀ x : α, Streams m fun f b => many (dec f) n b >>= fun xb => .ok (x :: xb.1, xb.2) := by
      intro x
      exact Streams.bind ih (Q := fun xs _ b => .ok (x :: xs, b)) (fun xs => Streams.pure (x :: xs))
    exact Streams.bind h h2

theorem streams_pair {α : Type} {m : Nat} {dec : Nat → Bytes → Py (α × Bytes)} (h : Streams m dec) :
    Streams m fun f b => pair (dec f) b := by
  have h2 : ∀ k : α, Streams m fun f b => dec f b >>= fun xb => .ok ((k, xb.1), xb.2) := by
    intro k
    exact Streams.bind h (Q := fun v _ b => .ok ((k, v), b)) (fun v => Streams.pure (k, v))
  exact Streams.bind h h2

theorem streams_payload {m : Nat} {dec : Nat → Bytes → Py (PyVal × Bytes)} (h : Streams m dec)
    (hd : Nat × Nat × Nat) : Streams m fun f b => payload (dec f) hd b := by
  unfold payload
  split
  · exact Streams.pure _
  · exact Streams.pure _
  · rename_i n
    exact Streams.bind (streams_take m n) (Q := fun x _ b => .ok (PyVal.bytes x, b))
      (fun x => Streams.pure _)
  · rename_i n
    refine Streams.bind (streams_take m n) (Q := fun x _ b => match utf8Decode x with
      | .ok s => pure (PyVal.str s, b)
      | .error _ => .error .cborDecodeValueError) ?_
    intro x
    cases utf8Decode x with
    | ok s => exact Streams.pure _
    | error e => exact Streams.fail _
  · rename_i n
    exact Streams.bind (streams_many h n) (Q := fun x _ b => .ok (PyVal.list x, b))
      (fun x => Streams.pure _)
  · rename_i n
    exact Streams.bind (streams_many (streams_pair h) n) (Q := fun x _ b => .ok (PyVal.dict x, b))
      (fun x => Streams.pure _)
  · exact Streams.pure _
  · exact Streams.pure _
  · exact Streams.pure _
  · exact Streams.pure _
  · exact Streams.fail _

/-- `decHead` reads at least one byte. -/
theorem decHead_streams {b rest : Bytes} {h : Nat × Nat × Nat} (hd : decHead b = .ok (h, rest)) :
    ∃ used, used ≠ [] ∧ b = used ++ rest ∧ (∀ r, decHead (used ++ r) = .ok (h, r)) ∧
      (∀ p q, used = p ++ q → q ≠ [] → ∃ e, decHead p = .error e) := by
  cases b with
  | nil => cases hd
  | cons c r =>
    unfold decHead at hd
    simp only at hd
    split_ifs at hd with h1 h2
    · simp only [Except.ok.injEq, Prod.mk.injEq] at hd
      obtain ⟨rfl, rfl⟩ := hd
      refine ⟨[c], by simp, rfl, ?_, ?_⟩
      · intro r'
        simp only [List.cons_append, List.nil_append, decHead]
        rw [if_pos h1]
      · intro p q hpq hq
        cases p with
        | nil => exact ⟨_, rfl⟩
        | cons d p =>
          exfalso
          have h5 := congrArg List.length hpq
          have h6 : 0 < q.length := List.length_pos_iff.mpr hq
          rw [List.length_append, List.length_singleton, List.length_cons] at h5
          omega
    · obtain ⟨⟨arg, r2⟩, h3, h4⟩ := bind_ok_iff.mp hd
      simp only [pure_eq_ok, Except.ok.injEq, Prod.mk.injEq] at h4
      obtain ⟨rfl, rfl⟩ := h4
      obtain ⟨u, rfl, e1, s1⟩ := streams_take 0 _ 0 r arg r2 (Nat.le_refl 0) h3
      refine ⟨c :: u, by simp, rfl, ?_, ?_⟩
      · intro r'
        simp only [List.cons_append, decHead]
        have e1' : take _ (u ++ r') = .ok (arg, r') := e1 u.length r' (Nat.le_refl _)
        rw [if_neg h1, if_pos h2, e1']
        rfl
      · intro p q hpq hq
        cases p with
        | nil => exact ⟨_, rfl⟩
        | cons d p =>
          simp only [List.cons_append, List.cons.injEq] at hpq
          obtain ⟨rfl, rfl⟩ := hpq
          obtain ⟨e, he⟩ := s1 p.length p q rfl hq (Nat.le_refl _)
          refine ⟨e, ?_⟩
          simp only [decHead]
          have he' : take _ p = .error e := he
          rw [if_neg h1, if_pos h2, he']
          rfl

theorem dec_succ (f : Nat) (b : Bytes) :
    dec (f + 1) b = decHead b >>= fun hb => payload (dec f) hb.1 hb.2 := rfl

/-- `dec` reads at least one byte. -/
theorem streams_dec (n : Nat) :
    ∀ f b x rest, f ≤ n → dec f b = .ok (x, rest) → ∃ used, used ≠ [] ∧ b = used ++ rest ∧
      (∀ f' r, used.length ≤ f' → dec f' (used ++ r) = .ok (x, r)) ∧
      (∀ f' p q, used = p ++ q → q ≠ [] → p.length ≤ f' → ∃ e, dec f' p = .error e) := by
  induction n with
  | zero =>
    intro f b x rest hf h
    obtain rfl : f = 0 := by omega
    cases h
  | succ n ih =>
    intro f b x rest hf h
    have hs : Streams n dec := by
      intro f b x rest hf h
      obtain ⟨u, -, h⟩ := ih f b x rest hf h
      exact ⟨u, h⟩
    cases f with
    | zero => cases h
    | succ f =>
      rw [dec_succ] at h
      obtain ⟨⟨hd, b'⟩, h1, h2⟩ := bind_ok_iff.mp h
      obtain ⟨u1, hu, rfl, e1, s1⟩ := decHead_streams h1
      obtain ⟨u2, rfl, e2, s2⟩ := streams_payload hs hd f b' x rest (by omega) h2
      have hpos : 0 < u1.length := List.length_pos_iff.mpr hu
      refine ⟨u1 ++ u2, by simp [hu], by simp, ?_, ?_⟩
      · intro f' r hf'
        rw [List.length_append] at hf'
        obtain ⟨g, rfl⟩ : ∃ g, f' = g + 1 := ⟨f' - 1, by omega⟩
        rw [dec_succ, List.append_assoc, e1, ok_bind]
        exact e2 g r (by omega)
      · intro f' p q hpq hq hf'
        cases f' with
        | zero => exact ⟨_, rfl⟩
        | succ g =>
          rcases prefix_cases hpq with ⟨q', hq', rfl⟩ | ⟨p', rfl, rfl⟩
          · obtain ⟨e, he⟩ := s1 p q' rfl hq'
            exact ⟨e, by rw [dec_succ, he, error_bind]⟩
          · rw [List.length_append] at hf'
            obtain ⟨e, he⟩ := s2 g p' q rfl hq (by omega)
            exact ⟨e, by rw [dec_succ, e1, ok_bind]; exact he⟩

theorem load_streams {b rest : Bytes} {v : PyVal} (h : load b = .ok (v, rest)) :
    ∃ used, used ≠ [] ∧ b = used ++ rest ∧ (∀ r, load (used ++ r) = .ok (v, r)) ∧
      (∀ p q, used = p ++ q → q ≠ [] → ∃ e, load p = .error e) := by
  obtain ⟨u, h1, h2, h3, h4⟩ := streams_dec _ _ b v rest (Nat.le_refl _) h
  refine ⟨u, h1, h2, fun r => h3 _ r ?_, fun p q hpq hq => h4 _ p q hpq hq (by omega)⟩
  rw [List.length_append]
  omega

/-! ## Round trip -/

theorem beNat_toBE (len n : Nat) (h : n < 256 ^ len) : beNat (toBE len n) = n := by
  induction len generalizing n with
  | zero => simp [toBE, beNat]; omega
  | succ len ih =>
    rw [toBE, beNat_snoc, ih (n / 256) (by rw [Nat.pow_succ] at h; omega), UInt8.toNat_ofNat']
    omega

theorem toBE_length (len n : Nat) : (toBE len n).length = len := by
  induction len generalizing n with
  | zero => rfl
  | succ len ih => simp [toBE, ih]

theorem take_append (b r : Bytes) : take b.length (b ++ r) = .ok (b, r) := by
  unfold take
  rw [if_pos (by simp)]
  simp

theorem decHead_long {major k n : Nat} {r : Bytes} (hm : major < 8) (hk : k < 4)
    (hn : n < 256 ^ 2 ^ k) :
    decHead (UInt8.ofNat (major * 32 + (24 + k)) :: toBE (2 ^ k) n ++ r) =
      .ok ((major, 24 + k, n), r) := by
  have hb : (UInt8.ofNat (major * 32 + (24 + k))).toNat = major * 32 + (24 + k) := by
    rw [UInt8.toNat_ofNat']; omega
  have ht := take_append (toBE (2 ^ k) n) r
  rw [toBE_length] at ht
  simp only [List.cons_append, decHead, hb]
  rw [if_neg (by omega), if_pos (by omega)]
  have e1 : (major * 32 + (24 + k)) % 32 = 24 + k := by omega
  have e2 : (major * 32 + (24 + k)) / 32 = major := by omega
  rw [e1, e2, show 24 + k - 24 = k by omega, ht]
  simp [beNat_toBE _ _ hn, pure_eq_ok]

theorem decHead_head {major n : Nat} (hm : major < 8) (hn : n < 2 ^ 64) (r : Bytes) :
    ∃ info, decHead (head major n ++ r) = .ok ((major, info, n), r) := by
  unfold head
  split_ifs with h1 h2 h3 h4
  · refine ⟨n, ?_⟩
    have hb : (UInt8.ofNat (major * 32 + n)).toNat = major * 32 + n := by
      rw [UInt8.toNat_ofNat']; omega
    simp only [List.cons_append, List.nil_append, decHead, hb]
    rw [if_pos (by omega)]
    have e1 : (major * 32 + n) % 32 = n := by omega
    have e2 : (major * 32 + n) / 32 = major := by omega
    rw [e1, e2]
  · exact ⟨24, decHead_long (k := 0) hm (by omega) (by omega)⟩
  · exact ⟨25, decHead_long (k := 1) hm (by omega) (by omega)⟩
  · exact ⟨26, decHead_long (k := 2) hm (by omega) (by omega)⟩
  · exact ⟨27, decHead_long (k := 3) hm (by omega) (by omega)⟩

theorem head_length_pos (major n : Nat) : 0 < (head major n).length := by
  unfold head
  split_ifs <;> simp

theorem encList_cons {v : PyVal} {l : List PyVal} {b : Bytes} :
    encList (v :: l) = .ok b ↔ ∃ x y, enc v = .ok x ∧ encList l = .ok y ∧ b = x ++ y := by
  rw [encList]
  cases h1 : enc v with
  | error e => simp
  | ok x =>
    cases h2 : encList l with
    | error e => simp
    | ok y => simp [eq_comm]

theorem encPair_iff {k v : PyVal} {b : Bytes} :
    encPair (k, v) = .ok b ↔ ∃ x y, enc k = .ok x ∧ enc v = .ok y ∧ b = x ++ y := by
  rw [encPair]
  cases h1 : enc k with
  | error e => simp
  | ok x =>
    cases h2 : enc v with
    | error e => simp
    | ok y => simp [eq_comm]

theorem encPairs_cons {p : PyVal × PyVal} {l : List (PyVal × PyVal)} {b : Bytes} :
    encPairs (p :: l) = .ok b ↔ ∃ x y, encPair p = .ok x ∧ encPairs l = .ok y ∧ b = x ++ y := by
  rw [encPairs]
  cases h1 : encPair p with
  | error e => simp
  | ok x =>
    cases h2 : encPairs l with
    | error e => simp
    | ok y => simp [eq_comm]

/-- `v` is decoded from every encoding of it. -/
def Decodes (v : PyVal) : Prop :=
  ∀ b, enc v = .ok b → ∀ r f, b.length ≤ f → dec f (b ++ r) = .ok (v, r)

theorem dec_head {major n f : Nat} {b r : Bytes} {v : PyVal} (hm : major < 8) (hn : n < 2 ^ 64)
    (hf : (head major n ++ b).length ≤ f)
    (h : ∀ info g, b.length ≤ g → payload (dec g) (major, info, n) (b ++ r) = .ok (v, r)) :
    dec f (head major n ++ b ++ r) = .ok (v, r) := by
  have hp := head_length_pos major n
  rw [List.length_append] at hf
  obtain ⟨g, rfl⟩ : ∃ g, f = g + 1 := ⟨f - 1, by omega⟩
  obtain ⟨info, hi⟩ := decHead_head hm hn (b ++ r)
  rw [dec_succ, List.append_assoc, hi, ok_bind]
  exact h info g (by omega)

theorem many_decodes {l : List PyVal} (h : ∀ v ∈ l, Decodes v) {b : Bytes}
    (hb : encList l = .ok b) (r : Bytes) (f : Nat) (hf : b.length ≤ f) :
    many (dec f) l.length (b ++ r) = .ok (l, r) := by
  induction l generalizing b with
  | nil =>
    rw [encList] at hb
    cases hb
    rfl
  | cons v l ih =>
    obtain ⟨x, y, h1, h2, rfl⟩ := encList_cons.mp hb
    rw [List.length_append] at hf
    rw [List.length_cons, many, List.append_assoc,
      h v (by simp) x h1 (y ++ r) f (by omega), ok_bind]
    simp only
    rw [ih (fun w hw => h w (by simp [hw])) h2 (by omega)]
    rfl

theorem pair_decodes {k v : PyVal} (hk : Decodes k) (hv : Decodes v) {b : Bytes}
    (hb : encPair (k, v) = .ok b) (r : Bytes) (f : Nat) (hf : b.length ≤ f) :
    pair (dec f) (b ++ r) = .ok ((k, v), r) := by
  obtain ⟨x, y, h1, h2, rfl⟩ := encPair_iff.mp hb
  rw [List.length_append] at hf
  rw [pair, List.append_assoc, hk x h1 (y ++ r) f (by omega), ok_bind]
  simp only
  rw [hv y h2 r f (by omega)]
  rfl

theorem many_pairs_decodes {d : List (PyVal × PyVal)}
    (h : ∀ kv ∈ d, Decodes kv.1 ∧ Decodes kv.2) {b : Bytes} (hb : encPairs d = .ok b) (r : Bytes)
    (f : Nat) (hf : b.length ≤ f) :
    many (pair (dec f)) d.length (b ++ r) = .ok (d, r) := by
  induction d generalizing b with
  | nil =>
    rw [encPairs] at hb
    cases hb
    rfl
  | cons p l ih =>
    obtain ⟨x, y, h1, h2, rfl⟩ := encPairs_cons.mp hb
    obtain ⟨k, v⟩ := p
    rw [List.length_append] at hf
    obtain ⟨hk, hv⟩ := h (k, v) (by simp)
    rw [List.length_cons, many, List.append_assoc,
      pair_decodes hk hv h1 (y ++ r) f (by omega), ok_bind]
    simp only
    rw [ih (fun w hw => h w (by simp [hw])) h2 (by omega)]
    rfl

theorem decodes_int (n : Int) : Decodes (.int n) := by
  intro b hb r f hf
  rw [enc] at hb
  split_ifs at hb with h1 h2 h2
  · simp only [Except.ok.injEq] at hb
    subst hb
    have := dec_head (major := 0) (n := n.toNat) (b := []) (r := r) (v := .int n) (f := f)
      (by omega) (by omega) (by simpa using hf) (by
        intro info g _
        simp [payload]
        omega)
    simpa using this
  · simp only [Except.ok.injEq] at hb
    subst hb
    have := dec_head (major := 1) (n := (-1 - n).toNat) (b := []) (r := r) (v := .int n) (f := f)
      (by omega) (by omega) (by simpa using hf) (by
        intro info g _
        simp [payload]
        omega)
    simpa using this

theorem decodes_str (s : String) : Decodes (.str s) := by
  intro b hb r f hf
  rw [enc] at hb
  split_ifs at hb with h1
  simp only [Except.ok.injEq] at hb
  subst hb
  refine dec_head (by omega) h1 hf ?_
  intro info g _
  simp only [payload]
  rw [take_append, ok_bind]
  simp only
  rw [show utf8Decode (utf8Encode s) = .ok s from utf8Decode_ok_iff.mpr rfl]
  rfl

theorem plain_decodes {v : PyVal} (h : Plain v) : Decodes v := by
  induction h with
  | none =>
    intro b hb r f hf
    simp only [enc, Except.ok.injEq] at hb
    subst hb
    obtain ⟨g, rfl⟩ : ∃ g, f = g + 1 := ⟨f - 1, by simp at hf; omega⟩
    rfl
  | bool c =>
    intro b hb r f hf
    simp only [enc, Except.ok.injEq] at hb
    subst hb
    obtain ⟨g, rfl⟩ : ∃ g, f = g + 1 := ⟨f - 1, by simp at hf; omega⟩
    cases c <;> rfl
  | int n => exact decodes_int n
  | float x _ =>
    intro b hb r f hf
    simp only [enc, Except.ok.injEq] at hb
    subst hb
    obtain ⟨g, rfl⟩ : ∃ g, f = g + 1 := ⟨f - 1, by simp at hf; omega⟩
    have h := decHead_long (major := 7) (k := 3) (n := x.bits.toNat) (r := r) (by omega) (by omega)
      (by have := x.bits.toNat_lt; omega)
    have h' : decHead (251 :: toBE 8 x.bits.toNat ++ r) = .ok ((7, 27, x.bits.toNat), r) := h
    rw [dec_succ, h', ok_bind]
    simp [payload]
  | str s => exact decodes_str s
  | bytes x =>
    intro b hb r f hf
    rw [enc] at hb
    split_ifs at hb with h1
    simp only [Except.ok.injEq] at hb
    subst hb
    refine dec_head (by omega) h1 hf ?_
    intro info g _
    simp only [payload]
    rw [take_append, ok_bind]
    rfl
  | list l _ ih =>
    intro b hb r f hf
    rw [enc] at hb
    split_ifs at hb with h1
    cases h2 : encList l with
    | error e => rw [h2] at hb; cases hb
    | ok x =>
      rw [h2] at hb
      simp only [Except.ok.injEq] at hb
      subst hb
      refine dec_head (by omega) h1 hf ?_
      intro info g hg
      simp only [payload]
      rw [many_decodes ih h2 r g hg, ok_bind]
      rfl
  | dict d hk _ _ ih =>
    intro b hb r f hf
    rw [enc] at hb
    split_ifs at hb with h1
    cases h2 : encPairs d with
    | error e => rw [h2] at hb; cases hb
    | ok x =>
      rw [h2] at hb
      simp only [Except.ok.injEq] at hb
      subst hb
      refine dec_head (by omega) h1 hf ?_
      intro info g hg
      simp only [payload]
      rw [many_pairs_decodes ?_ h2 r g hg, ok_bind]
      · rfl
      · intro kv hkv
        refine ⟨?_, ih kv hkv⟩
        rcases hk kv hkv with ⟨n, hn⟩ | ⟨s, hs⟩
        · rw [hn]; exact decodes_int n
        · rw [hs]; exact decodes_str s

/-! ## The laws -/

/-! ## What can be encoded -/

theorem enc_str {s : String} (h : (utf8Encode s).length < 2 ^ 64) : ∃ b, enc (.str s) = .ok b :=
  ⟨_, by rw [enc, if_pos h]⟩

theorem enc_bytes {b : Bytes} (h : b.length < 2 ^ 64) : ∃ r, enc (.bytes b) = .ok r :=
  ⟨_, by rw [enc, if_pos h]⟩

theorem enc_dict {d : Dict} (hl : d.length < 2 ^ 64)
    (h : ∀ kv ∈ d, (∃ b, enc kv.1 = .ok b) ∧ ∃ b, enc kv.2 = .ok b) :
    ∃ b, enc (.dict d) = .ok b := by
  have hp : ∃ b, encPairs d = .ok b := by
    clear hl
    induction d with
    | nil => exact ⟨[], by rw [encPairs]⟩
    | cons p d ih =>
      obtain ⟨b, hb⟩ := ih fun kv hkv => h kv (List.mem_cons_of_mem _ hkv)
      obtain ⟨⟨k, hk⟩, v, hv⟩ := h p (by simp)
      obtain ⟨p1, p2⟩ := p
      exact ⟨_, by rw [encPairs, encPair, hk]; simp only; rw [hv]; simp only; rw [hb]⟩
  obtain ⟨b, hb⟩ := hp
  exact ⟨_, by rw [enc, if_pos hl, hb]⟩

theorem enc_list {l : List PyVal} (hl : l.length < 2 ^ 64) (h : ∀ v ∈ l, ∃ b, enc v = .ok b) :
    ∃ b, enc (.list l) = .ok b := by
  have hp : ∃ b, encList l = .ok b := by
    clear hl
    induction l with
    | nil => exact ⟨[], by rw [encList]⟩
    | cons p l ih =>
      obtain ⟨b, hb⟩ := ih fun v hv => h v (List.mem_cons_of_mem _ hv)
      obtain ⟨v, hv⟩ := h p (by simp)
      exact ⟨_, by rw [encList, hv]; simp only; rw [hb]⟩
  obtain ⟨b, hb⟩ := hp
  exact ⟨_, by rw [enc, if_pos hl, hb]⟩

theorem streamLaws {env : Env} (h : env.cborLoad = load) : StreamLaws env where
  split := by
    intro b v rest hl
    rw [h] at hl
    obtain ⟨u, h1, h2, -⟩ := load_streams hl
    exact ⟨u, h1, h2⟩
  extend := by
    intro used v rest hl rest'
    rw [h] at hl ⊢
    obtain ⟨u, h1, h2, h3, -⟩ := load_streams hl
    obtain rfl : used = u := List.append_cancel_right h2
    exact h3 rest'
  short := by
    intro p q rest v hl hq
    rw [h] at hl ⊢
    obtain ⟨u, h1, h2, -, h4⟩ := load_streams hl
    obtain rfl : p ++ q = u := List.append_cancel_right h2
    exact h4 p q rfl hq

theorem codecLaws {env : Env} (h : env.cborLoad = load) (h' : env.cborDumps = enc) :
    CodecLaws env where
  roundTrip := by
    intro v b hp hb rest
    rw [h'] at hb
    rw [h]
    refine plain_decodes hp b hb rest _ ?_
    rw [List.length_append]
    omega

end WebAuthn.Cbor
