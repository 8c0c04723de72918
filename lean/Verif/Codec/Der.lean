import Verif.Spec.Der
import Verif.Lemmas.BigEndian

/-!
# A DER decoder

It reads the encodings of every type whose optional components have tags of their
own, so the law about the decoder can be met.
-/

namespace WebAuthn.Der

open WebAuthn WebAuthn.Asn1 WebAuthn.Spec

/-- Class, constructed, number. -/
abbrev Tag := Nat × Bool × Nat

def readSeptets : Bytes → Nat → Option (Nat × Bytes)
  | [], _ => none
  | x :: r, acc =>
    if x.toNat < 128 then some (128 * acc + x.toNat, r)
    else readSeptets r (128 * acc + (x.toNat - 128))

def readIdent : Bytes → Option (Tag × Bytes)
  | [] => none
  | x :: r =>
    if x.toNat % 32 < 31 then some ((x.toNat / 64, x.toNat / 32 % 2 == 1, x.toNat % 32), r)
    else (readSeptets r 0).map fun p => ((x.toNat / 64, x.toNat / 32 % 2 == 1, p.1), p.2)

def readLength : Bytes → Option (Nat × Bytes)
  | [] => none
  | x :: r =>
    if x.toNat < 128 then some (x.toNat, r)
    else if r.length < x.toNat - 128 then none
    else some (beNat (r.take (x.toNat - 128)), r.drop (x.toNat - 128))

/-- The contents and what follows, if the tag is the expected one. -/
def expect (t : Tag) (b : Bytes) : Option (Bytes × Bytes) :=
  match readIdent b with
  | none => none
  | some (t', r) =>
    if t' = t then
      match readLength r with
      | none => none
      | some (n, r) => if r.length < n then none else some (r.take n, r.drop n)
    else none

def readInt : Bytes → Option Int
  | [] => none
  | x :: r =>
    if x.toNat < 128 then some (beNat (x :: r))
    else some ((beNat (x :: r) : Int) - 256 ^ (r.length + 1))

/-- All items of the contents of a set. -/
def readAll (read : Bytes → Option (Val × Bytes)) : Nat → Bytes → Option (List Val)
  | _, [] => some []
  | 0, _ :: _ => none
  | fuel + 1, x :: b =>
    match read (x :: b) with
    | none => none
    | some (v, r) => (readAll read fuel r).map (v :: ·)

/-- The outermost tag of a type. -/
def tyTag : Ty → Tag
  | .integer => (0, false, 2)
  | .boolean => (0, false, 1)
  | .enumerated => (0, false, 10)
  | .octetString => (0, false, 4)
  | .null => (0, false, 5)
  | .setOf _ => (0, true, 17)
  | .sequence _ => (0, true, 16)

def fieldTag : Option Nat → Ty → Tag
  | none, ty => tyTag ty
  | some n, _ => (2, true, n)

def starts (t : Tag) (b : Bytes) : Bool :=
  match readIdent b with
  | some (t', _) => t' == t
  | none => false

mutual

def dec : Ty → Bytes → Option (Val × Bytes)
  | .integer, b => (expect (0, false, 2) b).bind fun p => (readInt p.1).map fun n => (.integer n, p.2)
  | .boolean, b => (expect (0, false, 1) b).bind fun p =>
      if p.1 = [0xff] then some (.boolean true, p.2)
      else if p.1 = [0x00] then some (.boolean false, p.2) else none
  | .enumerated, b =>
      (expect (0, false, 10) b).bind fun p => (readInt p.1).map fun n => (.enumerated n, p.2)
  | .octetString, b => (expect (0, false, 4) b).map fun p => (.octets p.1, p.2)
  | .null, b => (expect (0, false, 5) b).bind fun p => if p.1 = [] then some (.null, p.2) else none
  | .setOf t, b => (expect (0, true, 17) b).bind fun p =>
      (readAll (dec t) p.1.length p.1).map fun l => (.set l, p.2)
  | .sequence fs, b => (expect (0, true, 16) b).bind fun p =>
      (decFields fs p.1).map fun cs => (.sequence cs, p.2)

def decFields : Fields → Bytes → Option (List (String × Val))
  | .nil, b => if b = [] then some [] else none
  | .cons name optional tag ty rest, b =>
    if optional && !starts (fieldTag tag ty) b then decFields rest b
    else
      match tag with
      | none => (dec ty b).bind fun p => (decFields rest p.2).map fun cs => (name, p.1) :: cs
      | some n => (expect (2, true, n) b).bind fun p => (dec ty p.1).bind fun q =>
          if q.2 = [] then (decFields rest p.2).map fun cs => (name, q.1) :: cs else none

end

/-- The tags of the components. -/
def tags : Fields → List Tag
  | .nil => []
  | .cons _ _ tag ty rest => fieldTag tag ty :: tags rest

mutual

/-- No optional component has the tag of a later one. -/
def wellTagged : Ty → Bool
  | .setOf t => wellTagged t
  | .sequence fs => wellTaggedFields fs
  | _ => true

def wellTaggedFields : Fields → Bool
  | .nil => true
  | .cons _ optional tag ty rest =>
    (!optional || !(tags rest).contains (fieldTag tag ty)) && wellTagged ty && wellTaggedFields rest

end

/-! ## Reading what was written -/

theorem readSeptets_write {ds : List Nat} {d : Nat} (hd : d < 128) (hds : ∀ x ∈ ds, x < 128) (acc : Nat)
    (r : Bytes) :
    readSeptets (ds.map (fun x => UInt8.ofNat (128 + x)) ++ UInt8.ofNat d :: r) acc =
      some ((ds ++ [d]).foldl (fun a x => 128 * a + x) acc, r) := by
  induction ds generalizing acc with
  | nil =>
    have : (UInt8.ofNat d).toNat = d := by simp; omega
    simp [readSeptets, this, hd]
  | cons x ds ih =>
    have hx := hds x (by simp)
    have : (UInt8.ofNat (128 + x)).toNat = 128 + x := by simp; omega
    simp only [List.map_cons, List.cons_append, readSeptets, this]
    rw [if_neg (by omega), ih (fun y hy => hds y (by simp [hy]))]
    simp

theorem base128 {ds : List Nat} {n : Nat} (h : Base128 ds n) :
    ds.foldl (fun a x => 128 * a + x) 0 = n ∧ ∀ x ∈ ds, x < 128 := by
  induction h with
  | nil => simp
  | snoc ds n d h hd ih =>
    refine ⟨by simp [ih.1], fun x hx => ?_⟩
    rcases List.mem_append.mp hx with hx | hx
    · exact ih.2 x hx
    · rw [List.mem_singleton] at hx
      omega

theorem firstOctet_toNat {cls : Nat} (hc : cls < 4) (k : Bool) {n : Nat} (hn : n < 32) :
    (firstOctet cls k n).toNat = 64 * cls + (if k then 32 else 0) + n := by
  unfold firstOctet
  cases k <;> simp <;> omega

theorem readIdent_write {cls n : Nat} {k : Bool} {i : Bytes} (hc : cls < 4) (h : Identifier cls k n i)
    (r : Bytes) : readIdent (i ++ r) = some ((cls, k, n), r) := by
  cases h with
  | low h =>
    have := firstOctet_toNat hc k (n := n) (by omega)
    simp only [List.cons_append, List.nil_append, readIdent, this]
    rw [if_pos (by cases k <;> simp <;> omega)]
    simp only [Option.some.injEq, Prod.mk.injEq, and_true]
    cases k <;> simp <;> omega
  | high ds d h1 h2 h3 =>
    have := firstOctet_toNat hc k (n := 31) (by omega)
    obtain ⟨h4, h5⟩ := base128 h2
    simp only [List.cons_append, List.append_assoc, List.nil_append, readIdent, this]
    rw [if_neg (by cases k <;> simp <;> omega),
      readSeptets_write (h5 d (by simp)) (fun x hx => h5 x (by simp [hx])), h4]
    simp only [Option.map_some, Option.some.injEq, Prod.mk.injEq, and_true]
    cases k <;> simp <;> omega

theorem readLength_write {n : Nat} {l : Bytes} (h : LengthOctets n l) (r : Bytes) :
    readLength (l ++ r) = some (n, r) := by
  cases h with
  | short h =>
    have : (UInt8.ofNat n).toNat = n := by simp; omega
    simp [readLength, this, h]
  | long b h1 h2 h3 h4 =>
    have : (UInt8.ofNat (128 + b.length)).toNat = 128 + b.length := by simp; omega
    simp only [List.cons_append, readLength, this]
    rw [if_neg (by omega), if_neg (by simp)]
    rw [bigEndian_iff] at h3
    simp [h3]

theorem expect_write {cls n : Nat} {k : Bool} {c b : Bytes} (hc : cls < 4) (h : Tlv cls k n c b)
    (r : Bytes) : expect (cls, k, n) (b ++ r) = some (c, r) := by
  obtain ⟨i, l, h1, h2, rfl⟩ := h
  unfold expect
  simp only [List.append_assoc, readIdent_write hc h1, if_true, readLength_write h2]
  rw [if_neg (by simp)]
  simp

theorem starts_write {cls n : Nat} {k : Bool} {c b : Bytes} (hc : cls < 4) (h : Tlv cls k n c b)
    (r : Bytes) : ∃ s, readIdent (b ++ r) = some ((cls, k, n), s) := by
  obtain ⟨i, l, h1, h2, rfl⟩ := h
  exact ⟨l ++ (c ++ r), by simp only [List.append_assoc, readIdent_write hc h1]⟩

theorem readInt_write {n : Int} {c : Bytes} (h : IntegerOctets n c) : readInt c = some n := by
  cases h with
  | positive x r n h1 h2 h3 =>
    rw [bigEndian_iff] at h2
    simp [readInt, h1, h2]
  | negative x r n h1 h2 h3 =>
    rw [bigEndian_iff] at h2
    simp [readInt, h2, Nat.not_lt.mpr h1]

theorem der_starts {ty : Ty} {v : Val} {b : Bytes} (h : Der ty v b) (r : Bytes) :
    ∃ s, readIdent (b ++ r) = some (tyTag ty, s) := by
  cases ty <;> unfold Der at h
  · obtain ⟨_, _, -, -, h⟩ := h; exact starts_write (by decide) h r
  · obtain ⟨_, -, h⟩ := h; exact starts_write (by decide) h r
  · obtain ⟨_, _, -, -, h⟩ := h; exact starts_write (by decide) h r
  · obtain ⟨_, -, h⟩ := h; exact starts_write (by decide) h r
  · exact starts_write (by decide) h.2 r
  · obtain ⟨_, _, -, -, h⟩ := h; exact starts_write (by decide) h r
  · obtain ⟨_, _, -, -, h⟩ := h; exact starts_write (by decide) h r

theorem field_starts {tag : Option Nat} {ty : Ty} {v : Val} {inner p : Bytes} (h : Der ty v inner)
    (hp : match tag with
      | none => p = inner
      | some n => Tlv 2 true n inner p) (r : Bytes) :
    ∃ s, readIdent (p ++ r) = some (fieldTag tag ty, s) := by
  cases tag with
  | none => subst hp; exact der_starts h r
  | some n => exact starts_write (by decide) hp r

theorem fields_start : ∀ {fs : Fields} {cs : List (String × Val)} {b : Bytes}, DerFields fs cs b →
    b = [] ∨ ∃ t ∈ tags fs, ∃ s, readIdent b = some (t, s)
  | .nil, cs, b, h => by
    unfold DerFields at h
    exact Or.inl h.2
  | .cons name optional tag ty rest, cs, b, h => by
    unfold DerFields at h
    rcases h with ⟨v, cs', p, q, inner, -, rfl, h1, h2, -⟩ | ⟨-, h⟩
    · obtain ⟨s, hs⟩ := field_starts h1 h2 q
      exact Or.inr ⟨_, List.mem_cons_self .., s, hs⟩
    · rcases fields_start h with rfl | ⟨t, ht, s, hs⟩
      · exact Or.inl rfl
      · exact Or.inr ⟨t, List.mem_cons_of_mem _ ht, s, hs⟩

theorem tlv_ne_nil {cls n : Nat} {k : Bool} {c b : Bytes} (h : Tlv cls k n c b) : b ≠ [] := by
  obtain ⟨i, l, h1, -, rfl⟩ := h
  cases h1 <;> simp

theorem der_ne_nil {ty : Ty} {v : Val} {b : Bytes} (h : Der ty v b) : b ≠ [] := by
  cases ty <;> unfold Der at h
  · obtain ⟨_, _, -, -, h⟩ := h; exact tlv_ne_nil h
  · obtain ⟨_, -, h⟩ := h; exact tlv_ne_nil h
  · obtain ⟨_, _, -, -, h⟩ := h; exact tlv_ne_nil h
  · obtain ⟨_, -, h⟩ := h; exact tlv_ne_nil h
  · exact tlv_ne_nil h.2
  · obtain ⟨_, _, -, -, h⟩ := h; exact tlv_ne_nil h
  · obtain ⟨_, _, -, -, h⟩ := h; exact tlv_ne_nil h

theorem readAll_write {t : Ty} {l : List Val} {parts : List Bytes} (h : List.Forall₂ (Der t) l parts)
    (read : Bytes → Option (Val × Bytes))
    (hr : ∀ v b r, Der t v b → read (b ++ r) = some (v, r)) :
    ∀ fuel, parts.flatten.length ≤ fuel → readAll read fuel parts.flatten = some l := by
  induction h with
  | nil => intro fuel _; cases fuel <;> rfl
  | @cons v b l parts hv _ ih =>
    intro fuel hf
    have hb := List.length_pos_iff.mpr (der_ne_nil hv)
    simp only [List.flatten_cons, List.length_append] at hf
    obtain ⟨fuel, rfl⟩ : ∃ k, fuel = k + 1 := ⟨fuel - 1, by omega⟩
    have h1 := hr v b parts.flatten hv
    rw [List.flatten_cons]
    cases hx : b ++ parts.flatten with
    | nil => simp [der_ne_nil hv] at hx
    | cons x xs =>
      rw [hx] at h1
      simp only [readAll, h1, ih fuel (by omega), Option.map_some]

mutual

/-- The decoder reads every encoding. -/
theorem dec_write : ∀ (ty : Ty), wellTagged ty = true → ∀ (v : Val) (b r : Bytes), Der ty v b →
    dec ty (b ++ r) = some (v, r)
  | .integer, _, v, b, r, h => by
    unfold Der at h
    obtain ⟨n, c, rfl, h1, h2⟩ := h
    simp [dec, expect_write (by decide) h2, readInt_write h1]
  | .boolean, _, v, b, r, h => by
    unfold Der at h
    obtain ⟨x, rfl, h2⟩ := h
    cases x <;> simp [dec, expect_write (by decide) h2]
  | .enumerated, _, v, b, r, h => by
    unfold Der at h
    obtain ⟨n, c, rfl, h1, h2⟩ := h
    simp [dec, expect_write (by decide) h2, readInt_write h1]
  | .octetString, _, v, b, r, h => by
    unfold Der at h
    obtain ⟨o, rfl, h2⟩ := h
    simp [dec, expect_write (by decide) h2]
  | .null, _, v, b, r, h => by
    unfold Der at h
    obtain ⟨rfl, h2⟩ := h
    simp [dec, expect_write (by decide) h2]
  | .setOf t, hw, v, b, r, h => by
    unfold Der at h
    obtain ⟨l, parts, rfl, h1, h2⟩ := h
    have hw' : wellTagged t = true := by simpa [wellTagged] using hw
    simp only [dec, expect_write (by decide) h2, Option.bind_some,
      readAll_write h1 (dec t) (fun v b r => dec_write t hw' v b r) _ (Nat.le_refl _), Option.map_some]
  | .sequence fs, hw, v, b, r, h => by
    unfold Der at h
    obtain ⟨cs, c, rfl, h1, h2⟩ := h
    have hw' : wellTaggedFields fs = true := by simpa [wellTagged] using hw
    simp only [dec, expect_write (by decide) h2, Option.bind_some, decFields_write fs hw' cs c h1,
      Option.map_some]

theorem decFields_write : ∀ (fs : Fields), wellTaggedFields fs = true →
    ∀ (cs : List (String × Val)) (b : Bytes), DerFields fs cs b → decFields fs b = some cs
  | .nil, _, cs, b, h => by
    unfold DerFields at h
    obtain ⟨rfl, rfl⟩ := h
    rfl
  | .cons name optional tag ty rest, hw, cs, b, h => by
    simp only [wellTaggedFields, Bool.and_eq_true] at hw
    obtain ⟨⟨hw1, hw2⟩, hw3⟩ := hw
    unfold DerFields at h
    rcases h with ⟨v, cs', p, q, inner, rfl, rfl, h1, h2, h3⟩ | ⟨rfl, h⟩
    · obtain ⟨s, hs⟩ := field_starts h1 h2 q
      have hst : starts (fieldTag tag ty) (p ++ q) = true := by simp [starts, hs]
      unfold decFields
      rw [hst, if_neg (by simp)]
      cases tag with
      | none =>
        subst h2
        simp only [dec_write ty hw2 v p q h1, Option.bind_some, decFields_write rest hw3 cs' q h3,
          Option.map_some]
      | some n =>
        have := dec_write ty hw2 v inner [] h1
        rw [List.append_nil] at this
        simp only [expect_write (by decide) h2, this, Option.bind_some, if_true,
          decFields_write rest hw3 cs' q h3, Option.map_some]
    · have hst : starts (fieldTag tag ty) b = false := by
        rcases fields_start h with rfl | ⟨t, ht, s, hs⟩
        · rfl
        · simp only [starts, hs]
          rw [beq_eq_false_iff_ne]
          rintro rfl
          simp at hw1
          exact hw1 ht
      unfold decFields
      rw [hst, if_pos (by rfl)]
      exact decFields_write rest hw3 cs b h

end

theorem keyDescription_wellTagged : wellTagged keyDescription = true := by decide

/-- `decode(b, ty())[0]`. -/
def decode (ty : Ty) (b : Bytes) : Py Val :=
  match dec ty b with
  | some (v, _) => .ok v
  | none => .error .pyAsn1Error

/-- The law can be met. -/
theorem derLaw {env : Env} (h : env.decodeDer = decode) : DerLaw env := by
  intro v b rest hd
  rw [h]
  unfold decode
  rw [dec_write keyDescription keyDescription_wellTagged v b rest hd]

/-! ## What is read has the type asked for -/

theorem readAll_forall {P : Val → Prop} {read : Bytes → Option (Val × Bytes)}
    (h : ∀ b v r, read b = some (v, r) → P v) :
    ∀ (n : Nat) (b : Bytes) (l : List Val), readAll read n b = some l → ∀ v ∈ l, P v := by
  intro n
  induction n with
  | zero =>
    intro b l hl
    cases b with
    | nil => simp only [readAll, Option.some.injEq] at hl; subst hl; simp
    | cons => simp [readAll] at hl
  | succ n ih =>
    intro b l hl
    cases b with
    | nil => simp only [readAll, Option.some.injEq] at hl; subst hl; simp
    | cons c b =>
      rw [readAll] at hl
      split at hl
      · cases hl
      · next v r hr =>
        simp only [Option.map_eq_some_iff] at hl
        obtain ⟨l', h1, rfl⟩ := hl
        intro w hw
        rcases List.mem_cons.mp hw with rfl | hw
        · exact h _ _ _ hr
        · exact ih r l' h1 w hw

mutual

theorem dec_typed : ∀ (ty : Ty) (b : Bytes) (v : Val) (r : Bytes), dec ty b = some (v, r) →
    HasType ty v
  | .integer, b, v, r, h => by
    simp only [dec, Option.bind_eq_some_iff, Option.map_eq_some_iff, Prod.mk.injEq] at h
    obtain ⟨_, _, n, _, rfl, _⟩ := h
    exact ⟨n, rfl⟩
  | .boolean, b, v, r, h => by
    simp only [dec, Option.bind_eq_some_iff] at h
    obtain ⟨_, _, h⟩ := h
    split at h
    · cases h; exact ⟨true, rfl⟩
    · split at h
      · cases h; exact ⟨false, rfl⟩
      · cases h
  | .enumerated, b, v, r, h => by
    simp only [dec, Option.bind_eq_some_iff, Option.map_eq_some_iff, Prod.mk.injEq] at h
    obtain ⟨_, _, n, _, rfl, _⟩ := h
    exact ⟨n, rfl⟩
  | .octetString, b, v, r, h => by
    simp only [dec, Option.map_eq_some_iff, Prod.mk.injEq] at h
    obtain ⟨p, _, rfl, _⟩ := h
    exact ⟨p.1, rfl⟩
  | .null, b, v, r, h => by
    simp only [dec, Option.bind_eq_some_iff] at h
    obtain ⟨_, _, h⟩ := h
    split at h
    · cases h; rfl
    · cases h
  | .setOf t, b, v, r, h => by
    simp only [dec, Option.bind_eq_some_iff, Option.map_eq_some_iff, Prod.mk.injEq] at h
    obtain ⟨p, _, l, hl, rfl, _⟩ := h
    exact ⟨l, rfl, readAll_forall (fun b v r => dec_typed t b v r) _ _ _ hl⟩
  | .sequence fs, b, v, r, h => by
    simp only [dec, Option.bind_eq_some_iff, Option.map_eq_some_iff, Prod.mk.injEq] at h
    obtain ⟨p, _, cs, hl, rfl, _⟩ := h
    exact ⟨cs, rfl, decFields_typed fs _ _ hl⟩

theorem decFields_typed : ∀ (fs : Fields) (b : Bytes) (cs : List (String × Val)),
    decFields fs b = some cs → HasFields fs cs
  | .nil, b, cs, h => by
    rw [decFields] at h
    split at h
    · cases h; rfl
    · cases h
  | .cons name optional tag ty rest, b, cs, h => by
    rw [decFields.eq_def] at h
    dsimp only at h
    split at h
    · next ho =>
      simp only [Bool.and_eq_true] at ho
      exact Or.inr ⟨ho.1, decFields_typed rest b cs h⟩
    · refine Or.inl ?_
      cases tag with
      | none =>
        simp only [Option.bind_eq_some_iff, Option.map_eq_some_iff] at h
        obtain ⟨p, h1, cs', h2, rfl⟩ := h
        exact ⟨p.1, cs', rfl, dec_typed ty b p.1 p.2 h1, decFields_typed rest _ _ h2⟩
      | some n =>
        simp only [Option.bind_eq_some_iff] at h
        obtain ⟨p, _, q, h1, h⟩ := h
        split at h
        · simp only [Option.map_eq_some_iff] at h
          obtain ⟨cs', h2, rfl⟩ := h
          exact ⟨q.1, cs', rfl, dec_typed ty _ q.1 q.2 h1, decFields_typed rest _ _ h2⟩
        · cases h

end

/-- The decoder returns values of the type. -/
theorem derTyped {env : Env} (h : env.decodeDer = decode) : DerTyped env := by
  intro b v hd
  rw [h] at hd
  unfold decode at hd
  split at hd
  · next v' r hr => cases hd; exact dec_typed _ _ _ _ hr
  · cases hd

end WebAuthn.Der
