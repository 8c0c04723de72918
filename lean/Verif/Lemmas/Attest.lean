import Verif.Spec.Attestation
import Verif.Lemmas.Backend
import Verif.Lemmas.Errors

/-!
# The attesters and the specification agree
-/

namespace WebAuthn

open WebAuthn.Spec

theorem attestFidoU2F_ok_iff {env : Env} {sig : Bytes} {x5c : List Bytes} {o : AttestationObject}
    {hash : Bytes} {r : AttestationType × TrustedPath} :
    attestFidoU2F env sig x5c (.attObj o) hash = .ok r ↔
      ∃ cert, U2FOk env sig x5c o.authData hash cert ∧ r = (.BASIC, some [cert]) := by
  unfold attestFidoU2F U2FOk
  constructor
  · intro h
    split at h
    · rename_i cb
      simp only [bind_ok_iff, catching_ok_iff] at h
      obtain ⟨cert, h1, pk, h2, h⟩ := h
      split at h
      · rename_i c cx cy
        simp only [bind_ok_iff, require_ok_iff, beq_iff_eq, AttObjArg.authData, Except.ok.injEq,
          exists_eq_left', attestedOf_ok_iff] at h
        obtain ⟨_, rfl, acd, h3, h⟩ := h
        split at h
        · cases h
        · rename_i k hk
          simp only [bind_ok_iff, Prod.exists, catching_ok_iff, pure_eq_ok, Except.ok.injEq] at h
          obtain ⟨x, y, hxy, _, hv, rfl⟩ := h
          cases k with
          | ec2 b x' y' crv =>
            cases hxy
            refine ⟨cert, ⟨cb, cx, cy, acd, b, x, y, crv, rfl, h1, h2, h3, hk, ?_⟩, rfl⟩
            rw [← hv]
            congr 1
            simp
          | okp b crv x' => cases hxy
          | base b => cases hxy
      · cases h
    · cases h
  · rintro ⟨cert, ⟨cb, cx, cy, acd, b, x, y, crv, rfl, h1, h2, h3, h4, h5⟩, rfl⟩
    simp only [bind_ok_iff, catching_ok_iff]
    refine ⟨cert, h1, _, h2, ?_⟩
    simp only [bind_ok_iff, require_ok_iff, beq_iff_eq, AttObjArg.authData, Except.ok.injEq,
      exists_eq_left', attestedOf_ok_iff]
    refine ⟨(), trivial, acd, h3, ?_⟩
    rw [h4]
    simp only [keyXY, bind_ok_iff, Except.ok.injEq, exists_eq_left', catching_ok_iff, pure_eq_ok]
    refine ⟨(), ?_, trivial⟩
    rw [← h5]
    congr 1
    simp

theorem androidVerify_ok_iff {env : Env} {alg : NV Alg} {sig data : Bytes} {pk : CryptoKey}
    {u : Unit} : androidVerify env alg sig pk data = .ok u ↔ CertSigned env alg.id sig data pk := by
  unfold androidVerify
  rw [catching_ok_iff]
  cases pk with
  | ec c x y =>
    simp only [bind_ok_iff, ec2HashAlgorithm_ok_iff]
    constructor
    · rintro ⟨h, h1, h2⟩
      exact .ec c x y h h1 h2
    · intro h
      cases h with
      | ec _ _ _ h h1 h2 => exact ⟨h, h1, h2⟩
  | ed25519 raw =>
    constructor
    · exact fun h => .ed25519 raw h
    · intro h
      cases h with
      | ed25519 _ h => exact h
  | ed448 raw =>
    constructor
    · exact fun h => .ed448 raw h
    · intro h
      cases h with
      | ed448 _ h => exact h
  | other n =>
    constructor
    · intro h; cases h
    · intro h; cases h

theorem item_ok {fs : Asn1.Fields} {name : String} {ty : Asn1.Ty} (v : Option Asn1.Val)
    (h : fs.find name = some ty) :
    Asn1.Obj.item ⟨.sequence fs, v⟩ name = .ok ⟨ty, Asn1.child v name⟩ := by
  simp only [Asn1.Obj.item, h]

theorem child_iff {v : Asn1.Val} {name : String} {w : Asn1.Val} :
    Asn1.child (some v) name = some w ↔ Component v [name] w := by
  unfold Asn1.child Component
  constructor
  · intro h
    split at h
    · rename_i cs e
      cases e
      exact ⟨cs, w, rfl, h, rfl⟩
    · cases h
  · rintro ⟨cs, u, rfl, h, rfl⟩
    exact h

theorem child_child_iff {v : Asn1.Val} {a b : String} {w : Asn1.Val} :
    Asn1.child (Asn1.child (some v) a) b = some w ↔ Component v [a, b] w := by
  constructor
  · intro h
    cases hu : Asn1.child (some v) a with
    | none => rw [hu] at h; cases h
    | some u =>
      rw [hu, child_iff] at h
      obtain ⟨cs, u', rfl, h1, rfl⟩ := child_iff.mp hu
      exact ⟨cs, u', rfl, h1, h⟩
  · rintro ⟨cs, u, rfl, h1, h2⟩
    have : Asn1.child (some (.sequence cs)) a = some u := h1
    rw [this, child_iff]
    exact h2

theorem asOctets_ok_iff {o : Asn1.Obj} {b : Bytes} : o.asOctets = .ok b ↔ o.val = some (.octets b) := by
  unfold Asn1.Obj.asOctets
  split <;> simp_all

theorem toInt_ok_iff {o : Asn1.Obj} {n : Int} : o.toInt = .ok n ↔ o.val = some (.integer n) := by
  unfold Asn1.Obj.toInt
  split <;> simp_all

theorem count_ok_iff {o : Asn1.Obj} {k : Int} {n : Nat} :
    o.count k = .ok n ↔ ∃ l, o.val = some (.set l) ∧ l.countP (Asn1.Val.isInt k) = n := by
  unfold Asn1.Obj.count
  split <;> simp_all

theorem checkKeyDescription_ok_iff {kd : Asn1.Val} {hash : Bytes} {u : Unit} :
    checkKeyDescription ⟨Asn1.keyDescription, some kd⟩ hash = .ok u ↔ KeyDescriptionOk kd hash := by
  have f1 : ∀ v, Asn1.Obj.item ⟨Asn1.keyDescription, v⟩ "attestationChallenge" =
      .ok ⟨.octetString, Asn1.child v "attestationChallenge"⟩ := fun v => item_ok v rfl
  have f2 : ∀ v, Asn1.Obj.item ⟨Asn1.keyDescription, v⟩ "softwareEnforced" =
      .ok ⟨Asn1.authorizationList, Asn1.child v "softwareEnforced"⟩ := fun v => item_ok v rfl
  have f3 : ∀ v, Asn1.Obj.item ⟨Asn1.keyDescription, v⟩ "teeEnforced" =
      .ok ⟨Asn1.authorizationList, Asn1.child v "teeEnforced"⟩ := fun v => item_ok v rfl
  have f4 : ∀ v, Asn1.Obj.item ⟨Asn1.authorizationList, v⟩ "allApplications" =
      .ok ⟨.null, Asn1.child v "allApplications"⟩ := fun v => item_ok v rfl
  have f5 : ∀ v, Asn1.Obj.item ⟨Asn1.authorizationList, v⟩ "origin" =
      .ok ⟨.integer, Asn1.child v "origin"⟩ := fun v => item_ok v rfl
  have f6 : ∀ v, Asn1.Obj.item ⟨Asn1.authorizationList, v⟩ "purpose" =
      .ok ⟨.setOf .integer, Asn1.child v "purpose"⟩ := fun v => item_ok v rfl
  simp only [checkKeyDescription, f1, f2, f3, f4, f5, f6, ok_bind, bind_ok_iff, require_ok_iff,
    asOctets_ok_iff, toInt_ok_iff, count_ok_iff, Asn1.Obj.hasValue, beq_iff_eq, bne_iff_ne, exists_const,
    Bool.not_eq_true', Bool.or_eq_false_iff, Option.isSome_eq_false_iff, Option.isNone_iff_eq_none,
    Option.eq_none_iff_forall_ne_some, ne_eq, child_iff, child_child_iff]
  unfold KeyDescriptionOk
  constructor
  · rintro ⟨_, h1, rfl, ⟨h2, h3⟩, -, _, h4, rfl, -, n, ⟨l, h5, rfl⟩, h6⟩
    refine ⟨h1, h2, h3, h4, l, h5, ?_⟩
    rw [List.countP_eq_zero] at h6
    push Not at h6
    obtain ⟨v, hv, h6⟩ := h6
    cases v with
    | integer m =>
      obtain rfl : m = 2 := by simpa [Asn1.Val.isInt] using h6
      exact hv
    | _ => simp [Asn1.Val.isInt] at h6
  · rintro ⟨h1, h2, h3, h4, l, h5, h6⟩
    refine ⟨_, h1, rfl, ⟨h2, h3⟩, ?_, _, h4, rfl, ?_, _, ⟨l, h5, rfl⟩, ?_⟩
    · rw [child_child_iff.mpr h4]; rfl
    · rw [child_child_iff.mpr h5]; rfl
    · rw [List.countP_eq_zero]
      exact fun h => h _ h6 rfl

theorem attestAndroidKey_ok_iff {env : Env} {alg : NV Alg} {sig : Bytes} {x5c : List Bytes}
    {o : AttestationObject} {raw hash : Bytes} {r : AttestationType × TrustedPath} :
    attestAndroidKey env alg sig x5c (.attObj o) raw hash = .ok r ↔
      ∃ cert, AndroidOk env alg.id sig x5c o.authData raw hash cert ∧
        r = (.BASIC, some [cert]) := by
  unfold attestAndroidKey AndroidOk
  cases x5c with
  | nil => simp [raise]
  | cons cb others =>
    simp only [bind_ok_iff, require_ok_iff, AttObjArg.authData, Except.ok.injEq,
      exists_eq_left', attestedOf_ok_iff, pure_eq_ok]
    constructor
    · rintro ⟨cert, h1, pk, h2, _, h3, acd, h4, h⟩
      cases hk : acd.credentialPublicKey with
      | none => rw [hk] at h; simp [raise] at h
      | some k =>
        rw [hk] at h
        simp only [bind_ok_iff, catching_ok_iff, require_ok_iff, androidVerify_ok_iff, beq_iff_eq,
          checkKeyDescription_ok_iff, cryptographyPublicKey_ok_iff, Except.ok.injEq] at h
        obtain ⟨cpk, h5, _, h6, _, h7, ext, ⟨ox, h8, h8'⟩, kd, h9, _, h10, rfl⟩ := h
        cases ox with
        | none => cases h8'
        | some e =>
          cases h8'
          exact ⟨cert, ⟨cb, others, pk, acd, k, cpk, ext, kd, rfl, h1, h2, h6, h4, hk, h5, h7, h8, h9,
            h10⟩, rfl⟩
    · rintro ⟨cert, ⟨cb', others', pk, acd, k, cpk, ext, kd, he, h1, h2, h3, h4, h5, h6, h7, h8, h9,
        h10⟩, rfl⟩
      cases he
      refine ⟨cert, h1, pk, h2, (), by cases h3 <;> rfl, acd, h4, ?_⟩
      simp only [h5, bind_ok_iff, catching_ok_iff, require_ok_iff, androidVerify_ok_iff, beq_iff_eq,
        checkKeyDescription_ok_iff, cryptographyPublicKey_ok_iff]
      exact ⟨cpk, h6, (), h3, (), h7, ext, ⟨some ext, h8, rfl⟩, kd, h9, (), h10, trivial⟩

end WebAuthn
