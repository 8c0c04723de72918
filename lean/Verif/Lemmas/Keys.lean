import Verif.Lemmas.Basic

/-!
# COSE keys: the parser against the specification
-/

namespace WebAuthn

open Spec

theorem parseKty_ok_iff {d : Dict} {m : NV KeyType} :
    parseKty d = .ok m ↔ ∃ v, Lookup d (.int 1) v ∧ Denotes ktyCode v m := by
  rw [parseKty, field_denotes (R := fun _ => True) (code := ktyCode)
    (fun k m => by rw [kty_call]; simp)]
  simp

theorem parseAlg_ok_iff {d : Dict} {m : NV Alg} :
    parseAlg d = .ok m ↔ ∃ v, Lookup d (.int 3) v ∧ Denotes algCode v m := by
  rw [parseAlg, field_denotes (R := fun _ => True) (code := algCode)
    (fun k m => by rw [alg_call]; simp)]
  simp

theorem parseEc2Crv_ok_iff {d : Dict} {m : NV Curve} :
    parseEc2Crv d = .ok m ↔
      (∃ v, Lookup d (.int (-1)) v ∧ Denotes crvCode v m) ∧ IsEc2Curve m.id := by
  rw [parseEc2Crv, field_denotes (R := fun m : NV Curve => IsEc2Curve m.id) (code := crvCode)
    (fun k m => ec2_call)]

theorem parseOkpCrv_ok_iff {d : Dict} {m : NV Curve} :
    parseOkpCrv d = .ok m ↔
      (∃ v, Lookup d (.int (-1)) v ∧ Denotes crvCode v m) ∧ IsOkpCurve m.id := by
  rw [parseOkpCrv, field_denotes (R := fun m : NV Curve => IsOkpCurve m.id) (code := crvCode)
    (fun k m => okp_call)]

theorem parseKeyOp_ok_iff {v : PyVal} {m : NV KeyOp} :
    parseKeyOp v = .ok m ↔ Denotes opCode v m := by
  rw [parseKeyOp]
  cases h : v.asKey? with
  | none =>
    simp only [raise_eq]
    constructor
    · intro h; cases h
    · intro hd
      obtain ⟨k, hk⟩ := denotes_key hd
      rw [← asKey?_eq, h] at hk
      cases hk
  | some k =>
    rw [asKey?_eq] at h
    simp only [catching_ok_iff, op_call, h]

theorem parseKeyOps_ok_iff {d : Dict} {o : Option (List (NV KeyOp))} :
    parseKeyOps d = .ok o ↔ (match o with
    | none => Missing d (.int 4)
    | some ops => ops ≠ [] ∧ ∃ vs, SeqMember d (.int 4) vs ∧
        List.Forall₂ (Denotes opCode) vs ops) := by
  rw [parseKeyOps]
  simp only [bind_ok_iff, fieldOptSeq, pure_eq_ok]
  constructor
  · rintro ⟨x, hx, h⟩
    cases x with
    | none => cases h; exact hx
    | some l =>
      simp only [bind_ok_iff, require_ok_iff, mapM_ok_iff, parseKeyOp_ok_iff] at h
      obtain ⟨_, hl, r, hr, he⟩ := h
      cases he
      refine ⟨?_, l, hx, hr⟩
      rintro rfl
      cases hr
      simp at hl
  · intro h
    cases o with
    | none => exact ⟨none, h, rfl⟩
    | some ops =>
      obtain ⟨hne, vs, hvs, hf⟩ := h
      refine ⟨some vs, hvs, ?_⟩
      simp only [bind_ok_iff, require_ok_iff, mapM_ok_iff, parseKeyOp_ok_iff]
      refine ⟨(), ?_, ops, hf, rfl⟩
      cases hf with
      | nil => exact absurd rfl hne
      | cons => simp

theorem parseKeyKwargs_ok_iff {d : Dict} {b : KeyBase} :
    parseKeyKwargs d = .ok b ↔ KeyMembers d b := by
  rw [parseKeyKwargs, KeyMembers]
  simp only [bind_ok_iff, parseKty_ok_iff, fieldOptBytes, parseAlg_ok_iff, parseKeyOps_ok_iff,
    pure_eq_ok, Except.ok.injEq]
  constructor
  · rintro ⟨kty, h1, kid, h2, alg, h3, ops, h4, iv, h5, rfl⟩
    obtain ⟨v, hv, hd⟩ := h3
    exact ⟨h1, h2, ⟨alg, v, rfl, hv, hd⟩, h4, h5⟩
  · rintro ⟨h1, h2, ⟨alg, v, ha, hv, hd⟩, h4, h5⟩
    refine ⟨_, h1, _, h2, alg, ⟨v, hv, hd⟩, _, h4, _, h5, ?_⟩
    rw [← ha]

theorem coordLen_eq (crv : NV Curve) : curveCoordinateByteLength crv = coordLen crv.id := by
  unfold curveCoordinateByteLength coordLen
  cases crv.id <;> rfl

theorem parseOkpPublicKey_ok_iff {d : Dict} {k : CPK} :
    parseOkpPublicKey d = .ok k ↔ ∃ b crv x, k = .okp b crv x ∧ KeyMembers d b ∧
      (∃ v, Lookup d (.int (-1)) v ∧ Denotes crvCode v crv) ∧ IsOkpCurve crv.id ∧
      Lookup d (.int (-2)) (.bytes x) ∧ x.length = coordLen crv.id := by
  rw [parseOkpPublicKey]
  simp only [bind_ok_iff, fieldBytes, parseOkpCrv_ok_iff, require_ok_iff, parseKeyKwargs_ok_iff,
    pure_eq_ok, Except.ok.injEq, coordLen_eq, beq_iff_eq]
  constructor
  · rintro ⟨x, hx, crv, ⟨hc, hc'⟩, _, hl, b, hb, rfl⟩
    exact ⟨b, crv, x, rfl, hb, hc, hc', hx, hl⟩
  · rintro ⟨b, crv, x, rfl, hb, hc, hc', hx, hl⟩
    exact ⟨x, hx, crv, ⟨hc, hc'⟩, (), hl, b, hb, rfl⟩

theorem parseEc2PublicKey_ok_iff {d : Dict} {k : CPK} :
    parseEc2PublicKey d = .ok k ↔ ∃ b x y crv, k = .ec2 b x y crv ∧ KeyMembers d b ∧
      (∃ v, Lookup d (.int (-1)) v ∧ Denotes crvCode v crv) ∧ IsEc2Curve crv.id ∧
      Lookup d (.int (-2)) (.bytes x) ∧ Lookup d (.int (-3)) (.bytes y) ∧
      x.length = coordLen crv.id ∧ y.length = coordLen crv.id := by
  rw [parseEc2PublicKey]
  simp only [bind_ok_iff, fieldBytes, parseEc2Crv_ok_iff, require_ok_iff, parseKeyKwargs_ok_iff,
    pure_eq_ok, Except.ok.injEq, coordLen_eq, beq_iff_eq, Bool.and_eq_true]
  constructor
  · rintro ⟨x, hx, y, hy, crv, ⟨hc, hc'⟩, _, ⟨hl, hl'⟩, b, hb, rfl⟩
    exact ⟨b, x, y, crv, rfl, hb, hc, hc', hx, hy, hl, hl'⟩
  · rintro ⟨b, x, y, crv, rfl, hb, hc, hc', hx, hy, hl, hl'⟩
    exact ⟨x, hx, y, hy, crv, ⟨hc, hc'⟩, (), ⟨hl, hl'⟩, b, hb, rfl⟩

/-- The `kty` read by `parse_cose_key`. -/
theorem ktyRead_ok_iff {d : Dict} {p : Exc → Bool} {e : LibErr} {m : NV KeyType} :
    catching (match d.get? (.int 1) with
      | some v => nvCall KeyType.nameTable KeyType.valueTable v
      | none => .error .keyError) p e = .ok m ↔
      ∃ v, Lookup d (.int 1) v ∧ Denotes ktyCode v m := by
  rw [catching_ok_iff]
  simp only [lookup_iff]
  cases h : d.get? (.int 1) with
  | none => simp
  | some v =>
    simp only [nvCall, Option.some.injEq, exists_eq_left']
    cases hk : v.asKey? with
    | none =>
      simp only [reduceCtorEq, false_iff]
      intro hd
      obtain ⟨k, hk'⟩ := denotes_key hd
      rw [← asKey?_eq, hk] at hk'
      cases hk'
    | some k =>
      rw [asKey?_eq] at hk
      simp only [kty_call, hk]

theorem denotes_unique {α : Type} {code : α → Int × String}
    (h1 : ∀ a b, (code a).1 = (code b).1 → a = b) (h2 : ∀ a b, (code a).2 = (code b).2 → a = b)
    {v : PyVal} {m n : NV α} (hm : Denotes code v m) (hn : Denotes code v n) : m = n := by
  rcases hm with ⟨a, rfl, ha⟩ | ⟨a, rfl, ha⟩ <;> rcases hn with ⟨b, rfl, hb⟩ | ⟨b, rfl, hb⟩
  · rw [ha] at hb; rw [h1 a b (PyVal.int.inj hb)]
  · rw [ha] at hb; cases hb
  · rw [ha] at hb; cases hb
  · rw [ha] at hb; rw [h2 a b (PyVal.str.inj hb)]

theorem kty_unique {d : Dict} {m n : NV KeyType}
    (hm : ∃ v, Lookup d (.int 1) v ∧ Denotes ktyCode v m)
    (hn : ∃ v, Lookup d (.int 1) v ∧ Denotes ktyCode v n) : m = n := by
  obtain ⟨v, hv, hd⟩ := hm
  obtain ⟨w, hw, hd'⟩ := hn
  cases lookup_unique hv hw
  exact denotes_unique (fun a b h => ktyCode_inj a b (.inr (.inl h)))
    (fun a b h => ktyCode_inj a b (.inr (.inr h))) hd hd'

/-- `parse_cose_key` on a dictionary succeeds exactly on COSE keys. -/
theorem parseCoseKeyDict_ok_iff {d : Dict} {k : CPK} :
    parseCoseKeyDict d = .ok k ↔ CoseKeyOf d k := by
  rw [parseCoseKeyDict]
  simp only [bind_ok_iff]
  constructor
  · rintro ⟨m, hm, h⟩
    have hm := ktyRead_ok_iff.mp hm
    cases hid : m.id with
    | OKP =>
      simp only [hid, parseOkpPublicKey_ok_iff] at h
      obtain ⟨b, crv, x, rfl, hb, hc, hc', hx, hl⟩ := h
      have := kty_unique hm hb.1
      exact ⟨hb, this ▸ hid, hc, hc', hx, hl⟩
    | EC2 =>
      simp only [hid, parseEc2PublicKey_ok_iff] at h
      obtain ⟨b, x, y, crv, rfl, hb, hc, hc', hx, hy, hl, hl'⟩ := h
      have := kty_unique hm hb.1
      exact ⟨hb, this ▸ hid, hc, hc', hx, hy, hl, hl'⟩
    | SYMMETRIC => simp [hid, raise] at h
  · intro h
    cases k with
    | ec2 b x y crv =>
      obtain ⟨hb, hid, hc, hc', hx, hy, hl, hl'⟩ := h
      refine ⟨b.kty, ktyRead_ok_iff.mpr hb.1, ?_⟩
      simp only [hid]
      exact parseEc2PublicKey_ok_iff.mpr ⟨b, x, y, crv, rfl, hb, hc, hc', hx, hy, hl, hl'⟩
    | okp b crv x =>
      obtain ⟨hb, hid, hc, hc', hx, hl⟩ := h
      refine ⟨b.kty, ktyRead_ok_iff.mpr hb.1, ?_⟩
      simp only [hid]
      exact parseOkpPublicKey_ok_iff.mpr ⟨b, crv, x, rfl, hb, hc, hc', hx, hl⟩
    | base b => exact absurd h (by simp [CoseKeyOf])

/-- `validate` accepts exactly the consistent keys. -/
theorem validate_ok_iff {k : CPK} {u : Unit} : validate k = .ok u ↔ KeyConsistent k := by
  cases k with
  | ec2 b x y crv =>
    simp only [validate, KeyConsistent, bind_ok_iff, pyAssert_ok_iff, beq_iff_eq]
    cases ha : b.alg with
    | none => simp
    | some a =>
      simp only [bind_ok_iff, require_ok_iff, Bool.or_eq_true, beq_iff_eq, IsEc2Curve, IsEcdsaAlg]
      simp [or_assoc]
  | okp b crv x =>
    simp only [validate, KeyConsistent, bind_ok_iff, pyAssert_ok_iff, beq_iff_eq]
    cases ha : b.alg with
    | none => simp
    | some a =>
      simp only [bind_ok_iff, require_ok_iff, Bool.or_eq_true, beq_iff_eq, IsOkpCurve]
      simp
  | base b => simp [validate, KeyConsistent, raise]

end WebAuthn
