import Verif.Spec.AttestOutcome
import Verif.Spec.Der
import Verif.Lemmas.Attest
import Verif.Lemmas.Outcome

/-!
# Errors of `attest`
-/

namespace WebAuthn

open WebAuthn.Spec

theorem androidVerify_error_iff {env : Env} {alg : NV Alg} {sig data : Bytes} {pk : CryptoKey}
    {x : Exc} (hpk : ∀ n, pk ≠ .other n) :
    androidVerify env alg sig pk data = .error x ↔
      CertSignatureRefused env alg.id sig data pk x := by
  have hi := fun e => hp1 (c := .InvalidSignature) (fun _ => isInvalidSignature_iff) e
  unfold androidVerify
  rw [catching_translated hi]
  cases pk with
  | ec c px py =>
    simp only [bind_error_iff, ec2HashAlgorithm_error_iff, ec2HashAlgorithm_ok_iff]
    constructor
    · rintro ⟨e, ⟨h, rfl⟩ | ⟨h, h1, h2⟩, ht⟩
      · cases ht with
        | caught _ hc he =>
          rw [List.mem_singleton.mp hc] at he
          simp [IsInstance, classesOf] at he
        | passes _ => exact .noHash c px py h
      · exact .ec c px py h e x h1 h2 ht
    · intro h
      cases h with
      | noHash _ _ _ h =>
        refine ⟨.assertionError, Or.inl ⟨h, rfl⟩, .passes ?_⟩
        simp [IsInstance, classesOf]
      | ec _ _ _ h e _ h1 h2 h3 => exact ⟨e, Or.inr ⟨h, h1, h2⟩, h3⟩
  | ed25519 r =>
    constructor
    · rintro ⟨e, h, ht⟩
      exact .ed25519 r e x h ht
    · intro h
      cases h with
      | ed25519 _ e _ h ht => exact ⟨e, h, ht⟩
  | ed448 r =>
    constructor
    · rintro ⟨e, h, ht⟩
      exact .ed448 r e x h ht
    · intro h
      cases h with
      | ed448 _ e _ h ht => exact ⟨e, h, ht⟩
  | other n => exact absurd rfl (hpk n)

theorem attestFidoU2F_error_iff {env : Env} {sig : Bytes} {x5c : List Bytes}
    {o : AttestationObject} {hash : Bytes} {x : Exc} :
    attestFidoU2F env sig x5c (.attObj o) hash = .error x ↔
      U2FRefused env sig o.authData hash x5c x := by
  have hv := fun e => hp1 (c := .ValueError) (fun _ => isValueError_iff) e
  have hi := fun e => hp1 (c := .InvalidSignature) (fun _ => isInvalidSignature_iff) e
  have r : require (CurveClass.SECP256R1 == CurveClass.SECP256R1) LibErr.attestation = .ok () := rfl
  unfold attestFidoU2F
  split
  · next b =>
    simp only [bind_error_iff, catching_translated hv, catching_ok_iff]
    constructor
    · rintro (⟨e, h1, h2⟩ | ⟨c, h1, h2⟩)
      · exact .cert b e x h1 h2
      · rcases h2 with h2 | ⟨pk, h2, h3⟩
        · exact .certKey b c x h1 h2
        · cases pk with
          | ec crv px py =>
            simp only [bind_error_iff, require_error_iff, require_ok_iff, AttObjArg.authData,
              Except.ok.injEq, exists_eq_left', attestedOf_error_iff, attestedOf_ok_iff,
              reduceCtorEq, false_or] at h3
            rcases h3 with ⟨h3, rfl⟩ | ⟨_, h3, h4⟩
            · refine .curve b c _ h1 h2 ?_
              intro x' y' h
              cases h
              exact absurd h3 (by decide)
            · rw [beq_iff_eq] at h3
              subst h3
              rcases h4 with ⟨h4, rfl⟩ | ⟨acd, h4, h5⟩
              · refine .noKey b c px py h1 h2 ?_
                intro acd k h
                rw [h4] at h
                cases h
              · cases hk : acd.credentialPublicKey with
                | none =>
                  rw [hk] at h5
                  cases h5
                  refine .noKey b c px py h1 h2 ?_
                  intro acd' k h
                  rw [h4] at h
                  cases h
                  rw [hk]
                  exact fun h => by cases h
                | some k =>
                  rw [hk] at h5
                  cases k with
                  | ec2 kb kx ky crv =>
                    simp only [keyXY, ok_bind, bind_error_iff, catching_translated hi, pure_eq_ok,
                      reduceCtorEq, and_false, exists_false, or_false] at h5
                    obtain ⟨e, h5, h6⟩ := h5
                    refine .signature b c px py acd kb kx ky crv e x h1 h2 h4 hk ?_ h6
                    rw [← h5]
                    congr 1
                    simp
                  | okp kb crv kx =>
                    cases h5
                    exact .otherKey b c px py acd _ h1 h2 h4 hk (by intro _ _ _ _ h; cases h)
                  | base kb =>
                    cases h5
                    exact .otherKey b c px py acd _ h1 h2 h4 hk (by intro _ _ _ _ h; cases h)
          | ed25519 r => cases h3; exact .curve b c _ h1 h2 (by intro x' y' h; cases h)
          | ed448 r => cases h3; exact .curve b c _ h1 h2 (by intro x' y' h; cases h)
          | other r => cases h3; exact .curve b c _ h1 h2 (by intro x' y' h; cases h)
    · intro h
      cases h with
      | path _ h => exact absurd rfl h
      | cert _ e _ h1 h2 => exact Or.inl ⟨e, h1, h2⟩
      | certKey _ c _ h1 h2 => exact Or.inr ⟨c, h1, Or.inl h2⟩
      | curve _ c pk h1 h2 h3 =>
        refine Or.inr ⟨c, h1, Or.inr ⟨pk, h2, ?_⟩⟩
        cases pk with
        | ec crv px py =>
          have : crv ≠ .SECP256R1 := by
            rintro rfl
            exact h3 px py rfl
          dsimp only
          rw [require_false, error_bind]
          simpa using this
        | _ => rfl
      | noKey _ c px py h1 h2 h3 =>
        refine Or.inr ⟨c, h1, Or.inr ⟨_, h2, ?_⟩⟩
        dsimp only
        rw [r, ok_bind]
        simp only [AttObjArg.authData, ok_bind]
        cases ha : o.authData.attested with
        | none => rw [attestedOf_error_iff.mpr ⟨ha, rfl⟩, error_bind]
        | some acd =>
          rw [attestedOf_ok_iff.mpr ha, ok_bind]
          cases hk : acd.credentialPublicKey with
          | none => rfl
          | some k => exact absurd hk (h3 acd k ha)
      | otherKey _ c px py acd k h1 h2 h3 h4 h5 =>
        refine Or.inr ⟨c, h1, Or.inr ⟨_, h2, ?_⟩⟩
        dsimp only
        rw [r, ok_bind]
        simp only [AttObjArg.authData, ok_bind]
        rw [attestedOf_ok_iff.mpr h3, ok_bind, h4]
        cases k with
        | ec2 kb kx ky crv => exact absurd rfl (h5 _ _ _ _)
        | okp kb crv kx => rfl
        | base kb => rfl
      | signature _ c px py acd kb kx ky crv e _ h1 h2 h3 h4 h5 h6 =>
        refine Or.inr ⟨c, h1, Or.inr ⟨_, h2, ?_⟩⟩
        dsimp only
        rw [r, ok_bind]
        simp only [AttObjArg.authData, ok_bind]
        rw [attestedOf_ok_iff.mpr h3, ok_bind, h4]
        simp only [keyXY, ok_bind]
        rw [(catching_translated hi).mpr ⟨e, ?_, h6⟩, error_bind]
        rw [← h5]
        congr 1
        simp
  · next h =>
    constructor
    · intro hx
      cases hx
      refine .path x5c ?_
      intro hl
      match x5c, hl, h with
      | [b], _, h => exact h b rfl
    · intro hr
      cases hr with
      | path => rfl
      | cert b => exact absurd rfl (h b)
      | certKey b => exact absurd rfl (h b)
      | curve b => exact absurd rfl (h b)
      | noKey b => exact absurd rfl (h b)
      | otherKey b => exact absurd rfl (h b)
      | signature b => exact absurd rfl (h b)

/-! ## Key descriptions -/

theorem lookup_absent {fs : Asn1.Fields} {cs : List (String × Asn1.Val)} {name : String}
    (h : HasFields fs cs) (hf : fs.find name = none) : cs.lookup name = none := by
  match fs with
  | .nil =>
    simp only [HasFields] at h
    subst h
    rfl
  | .cons n optional tag ty rest =>
    simp only [HasFields] at h
    simp only [Asn1.Fields.find] at hf
    split at hf
    · cases hf
    · next hn =>
      rcases h with ⟨v, cs', rfl, -, h⟩ | ⟨-, h⟩
      · have : (name == n) = false := by
          rw [beq_eq_false_iff_ne]
          exact fun h => hn h.symm
        rw [List.lookup_cons, this]
        exact lookup_absent h hf
      · exact lookup_absent h hf

/-- No name occurs twice. -/
def distinctNames : Asn1.Fields → Bool
  | .nil => true
  | .cons n _ _ _ rest => (rest.find n).isNone && distinctNames rest

theorem lookup_typed {fs : Asn1.Fields} {cs : List (String × Asn1.Val)} {name : String}
    {ty : Asn1.Ty} {v : Asn1.Val} (hd : distinctNames fs = true) (h : HasFields fs cs)
    (hf : fs.find name = some ty) (hl : cs.lookup name = some v) : HasType ty v := by
  match fs with
  | .nil => cases hf
  | .cons n optional tag ty' rest =>
    simp only [HasFields] at h
    simp only [Asn1.Fields.find] at hf
    simp only [distinctNames, Bool.and_eq_true, Option.isNone_iff_eq_none] at hd
    split at hf
    · next hn =>
      subst hn
      cases hf
      rcases h with ⟨v', cs', rfl, h1, h2⟩ | ⟨-, h⟩
      · simp only [List.lookup_cons, beq_self_eq_true, Option.some.injEq] at hl
        exact hl ▸ h1
      · rw [lookup_absent h hd.1] at hl
        cases hl
    · next hn =>
      rcases h with ⟨v', cs', rfl, -, h⟩ | ⟨-, h⟩
      · have : (name == n) = false := by
          rw [beq_eq_false_iff_ne]
          exact fun h => hn h.symm
        rw [List.lookup_cons, this] at hl
        exact lookup_typed hd.2 h hf hl
      · exact lookup_typed hd.2 h hf hl

theorem lookup_required {cs : List (String × Asn1.Val)} {name : String}
    {tag : Option Nat} {ty : Asn1.Ty} {rest : Asn1.Fields}
    (h : HasFields (.cons name false tag ty rest) cs) : ∃ v, cs.lookup name = some v := by
  simp only [HasFields] at h
  rcases h with ⟨v, cs', rfl, -, -⟩ | ⟨h, -⟩
  · exact ⟨v, by simp⟩
  · cases h

/-- What the check of a key description reads. -/
theorem keyDescription_typed {kd : Asn1.Val} (h : HasType Asn1.keyDescription kd) :
    (∃ b, Component kd ["attestationChallenge"] (.octets b)) ∧
    (∀ w, Component kd ["teeEnforced", "origin"] w → ∃ n, w = .integer n) ∧
    ∀ w, Component kd ["teeEnforced", "purpose"] w → ∃ l, w = .set l := by
  obtain ⟨cs, rfl, h⟩ : ∃ cs, kd = .sequence cs ∧ _ := h
  have hd1 : distinctNames (match Asn1.keyDescription with | .sequence fs => fs | _ => .nil) =
    true := by decide
  have hd2 : distinctNames (match Asn1.authorizationList with | .sequence fs => fs | _ => .nil) =
    true := by decide
  have hc : ∃ v, cs.lookup "attestationChallenge" = some v := by
    simp only [Asn1.req, HasFields, Bool.false_eq_true, false_and, or_false] at h
    obtain ⟨_, _, rfl, -, _, _, rfl, -, _, _, rfl, -, _, _, rfl, -, v, _, rfl, -, -⟩ := h
    exact ⟨v, rfl⟩
  have tee : ∀ name w ty, Component (.sequence cs) ["teeEnforced", name] w →
      (match Asn1.authorizationList with | .sequence fs => fs | _ => .nil).find name = some ty →
      HasType ty w := by
    rintro name w ty ⟨cs', u, e, h1, h2⟩ hf
    cases e
    obtain ⟨cs'', e, h3⟩ : HasType Asn1.authorizationList u := lookup_typed hd1 h rfl h1
    subst e
    obtain ⟨_, _, e, h4, e'⟩ := h2
    cases e
    cases e'
    exact lookup_typed hd2 h3 hf h4
  refine ⟨?_, fun w hw => tee "origin" w .integer hw rfl, fun w hw => ?_⟩
  · obtain ⟨v, hv⟩ := hc
    obtain ⟨b, rfl⟩ : HasType .octetString v := lookup_typed hd1 h rfl hv
    exact ⟨b, cs, _, rfl, hv, rfl⟩
  · obtain ⟨l, rfl, -⟩ := tee "purpose" w (.setOf .integer) hw rfl
    exact ⟨l, rfl⟩

theorem checkKeyDescription_error {kd : Asn1.Val} {hash : Bytes} {x : Exc}
    (h : HasType Asn1.keyDescription kd)
    (hx : checkKeyDescription ⟨Asn1.keyDescription, some kd⟩ hash = .error x) :
    x = .lib .attestation := by
  obtain ⟨⟨b, h1⟩, h2, h3⟩ := keyDescription_typed h
  have f1 : ∀ v, Asn1.Obj.item ⟨Asn1.keyDescription, v⟩ "attestationChallenge" =
      .ok ⟨.octetString, Asn1.child v "attestationChallenge"⟩ := fun v => item_ok v rfl
  have f2 : ∀ v, Asn1.Obj.item ⟨Asn1.keyDescription, v⟩ "softwareEnforced" =
      .ok ⟨Asn1.authorizationList, Asn1.child v "softwareEnforced"⟩ := fun v => item_ok v rfl
  have f3 : ∀ v, Asn1.Obj.item ⟨Asn1.keyDescription, v⟩ "teeEnforced" =
      .ok ⟨Asn1.authorizationList, Asn1.child v "teeEnforced"⟩ := fun v => item_ok v rfl
  have f4 : ∀ v, Asn1.Obj.item ⟨Asn1.authorizationList, v⟩ "allApplications" =
      .ok ⟨.null, Asn1.child v "allApplications"⟩ := fun v => item_ok v rfl
  have f5 : ∀ v, Asn1.Obj.item ⟨Asn1.authorizationList, v⟩ "origin" =
      .ok ⟨.integer, Asn1.child v "origin"⟩ := fun v => item_ok v rfl
  have f6 : ∀ v, Asn1.Obj.item ⟨Asn1.authorizationList, v⟩ "purpose" =
      .ok ⟨.setOf .integer, Asn1.child v "purpose"⟩ := fun v => item_ok v rfl
  simp only [checkKeyDescription, f1, f2, f3, f4, f5, f6, ok_bind, bind_error_iff,
    require_error_iff, require_ok_iff, Asn1.Obj.hasValue] at hx
  have e1 : (⟨.octetString, Asn1.child (some kd) "attestationChallenge"⟩ : Asn1.Obj).asOctets =
      .ok b := by
    rw [asOctets_ok_iff]
    exact child_iff.mpr h1
  rw [e1] at hx
  rcases hx with hx | ⟨_, -, ⟨_, hx⟩ | ⟨_, -, ⟨_, hx⟩ | ⟨_, -, ⟨_, hx⟩ | ⟨_, h4, hx⟩⟩⟩⟩
  · cases hx
  · exact hx
  · exact hx
  · exact hx
  · obtain ⟨w, h4⟩ := Option.isSome_iff_exists.mp h4
    obtain ⟨n, rfl⟩ := h2 w (child_child_iff.mp h4)
    have e2 : (⟨.integer, Asn1.child (Asn1.child (some kd) "teeEnforced") "origin"⟩ :
        Asn1.Obj).toInt = .ok n := toInt_ok_iff.mpr h4
    rw [e2] at hx
    rcases hx with hx | ⟨_, -, ⟨_, hx⟩ | ⟨_, -, ⟨_, hx⟩ | ⟨_, h5, hx⟩⟩⟩
    · cases hx
    · exact hx
    · exact hx
    · obtain ⟨w, h5⟩ := Option.isSome_iff_exists.mp h5
      obtain ⟨l, rfl⟩ := h3 w (child_child_iff.mp h5)
      have e3 : (⟨.setOf .integer, Asn1.child (Asn1.child (some kd) "teeEnforced") "purpose"⟩ :
        Asn1.Obj).count 2 = .ok _ := count_ok_iff.mpr ⟨l, h5, rfl⟩
      rw [e3] at hx
      rcases hx with hx | ⟨_, -, _, hx⟩
      · cases hx
      · exact hx

theorem checkKeyDescription_error_iff {kd : Asn1.Val} {hash : Bytes} {x : Exc}
    (h : HasType Asn1.keyDescription kd) :
    checkKeyDescription ⟨Asn1.keyDescription, some kd⟩ hash = .error x ↔
      ¬ KeyDescriptionOk kd hash ∧ x = .lib .attestation := by
  constructor
  · intro hx
    refine ⟨fun hk => ?_, checkKeyDescription_error h hx⟩
    rw [(checkKeyDescription_ok_iff (u := ())).mpr hk] at hx
    cases hx
  · rintro ⟨hk, rfl⟩
    cases hx : checkKeyDescription ⟨Asn1.keyDescription, some kd⟩ hash with
    | ok u => exact absurd (checkKeyDescription_ok_iff.mp hx) hk
    | error e => rw [checkKeyDescription_error h hx]

theorem isEcOrEdKey_iff {pk : CryptoKey} : isEcOrEdKey pk = true ↔ ∀ n, pk ≠ .other n := by
  cases pk <;> simp [isEcOrEdKey]

theorem attestAndroidKey_error_iff {env : Env} (ht : DerTyped env) {alg : NV Alg} {sig : Bytes}
    {x5c : List Bytes} {o : AttestationObject} {raw hash : Bytes} {x : Exc} :
    attestAndroidKey env alg sig x5c (.attObj o) raw hash = .error x ↔
      AndroidRefused env alg.id sig o.authData raw hash x5c x := by
  have hn := fun e => hp1 (c := .ExtensionNotFound) (fun _ => isExtensionNotFound_iff) e
  have ha := fun e => hp1 (c := .PyAsn1Error) (fun _ => isPyAsn1Error_iff) e
  unfold attestAndroidKey
  cases x5c with
  | nil =>
    constructor
    · intro h; cases h; exact .path
    · intro h; cases h; rfl
  | cons b l =>
    simp only [AttObjArg.authData, ok_bind]
    constructor
    · intro h
      rcases bind_error_iff.mp h with h | ⟨c, h1, h⟩
      · exact .cert b l x h
      rcases bind_error_iff.mp h with h | ⟨pk, h2, h⟩
      · exact .certKey b l c x h1 h
      rcases bind_error_iff.mp h with h | ⟨_, h3, h⟩
      · obtain ⟨h, rfl⟩ := require_error_iff.mp h
        cases pk with
        | other n => exact .kind b l c n h1 h2
        | _ => cases h
      have h3 := isEcOrEdKey_iff.mp (require_ok_iff.mp h3)
      rcases bind_error_iff.mp h with h | ⟨acd, h4, h⟩
      · obtain ⟨h', rfl⟩ := attestedOf_error_iff.mp h
        exact .notAttested b l c pk h1 h2 h3 h'
      rw [attestedOf_ok_iff] at h4
      cases hk : acd.credentialPublicKey with
      | none =>
        rw [hk] at h
        cases h
        exact .noKey b l c pk acd h1 h2 h3 h4 hk
      | some k =>
        rw [hk] at h
        have hks : AndroidKeys env b o.authData c pk k := ⟨h1, h2, h3, acd, h4, hk⟩
        rcases bind_error_iff.mp h with h | ⟨cpk, h5, h⟩
        · exact .key b l c pk k x hks (cryptographyPublicKey_error_iff.mp h)
        rw [cryptographyPublicKey_ok_iff] at h5
        rcases bind_error_iff.mp h with h | ⟨_, h6, h⟩
        · exact .signature b l c pk k cpk x hks h5 ((androidVerify_error_iff h3).mp h)
        rw [androidVerify_ok_iff] at h6
        rcases bind_error_iff.mp h with h | ⟨_, h7, h⟩
        · obtain ⟨h', rfl⟩ := require_error_iff.mp h
          exact .otherKey b l c pk k cpk hks h5 h6 (by simpa using h')
        rw [require_ok_iff, beq_iff_eq] at h7
        rcases bind_error_iff.mp h with h | ⟨ext, h8, h⟩
        · obtain ⟨e, h, h'⟩ := (catching_translated hn).mp h
          rcases bind_error_iff.mp h with h | ⟨oe, h8, h⟩
          · exact .extension b l c pk k cpk e x hks h5 h6 h7 h h'
          · cases oe with
            | some _ => cases h
            | none =>
              cases h
              cases h' with
              | caught _ hc he =>
                rw [List.mem_singleton.mp hc] at he
                simp [IsInstance, classesOf] at he
              | passes _ => exact .recognised b l c pk k cpk hks h5 h6 h7 h8
        rw [catching_ok_iff] at h8
        obtain ⟨oe, h8, h8'⟩ := bind_ok_iff.mp h8
        cases oe with
        | none => cases h8'
        | some e =>
          cases h8'
          rcases bind_error_iff.mp h with h | ⟨kd, h9, h⟩
          · obtain ⟨e, h, h'⟩ := (catching_translated ha).mp h
            exact .notDer b l c pk k cpk _ e x hks h5 h6 h7 h8 h h'
          rw [catching_ok_iff] at h9
          rcases bind_error_iff.mp h with h | ⟨_, h10, h⟩
          · obtain ⟨h', rfl⟩ := (checkKeyDescription_error_iff (ht _ _ h9)).mp h
            exact .description b l c pk k cpk _ kd hks h5 h6 h7 h8 h9 h'
          · cases h
    · intro h
      have r : ∀ pk, (∀ n, pk ≠ CryptoKey.other n) →
          require (isEcOrEdKey pk) LibErr.attestation = .ok () :=
        fun pk h => require_ok_iff.mpr (isEcOrEdKey_iff.mpr h)
      cases h with
      | cert _ _ _ h => rw [h, error_bind]
      | certKey _ _ c _ h1 h2 => rw [h1, ok_bind, h2, error_bind]
      | kind _ _ c n h1 h2 => rw [h1, ok_bind, h2, ok_bind]; rfl
      | notAttested _ _ c pk h1 h2 h3 h4 =>
        rw [h1, ok_bind, h2, ok_bind, r pk h3, ok_bind, attestedOf_error_iff.mpr ⟨h4, rfl⟩,
          error_bind]
      | noKey _ _ c pk acd h1 h2 h3 h4 h5 =>
        rw [h1, ok_bind, h2, ok_bind, r pk h3, ok_bind, attestedOf_ok_iff.mpr h4, ok_bind, h5]
        rfl
      | key _ _ c pk k _ hks h =>
        obtain ⟨g1, g2, g3, acd, g4, g5⟩ := hks
        rw [g1, ok_bind, g2, ok_bind, r pk g3, ok_bind, attestedOf_ok_iff.mpr g4, ok_bind, g5]
        dsimp only
        rw [cryptographyPublicKey_error_iff.mpr h, error_bind]
      | signature _ _ c pk k cpk _ hks h5 h =>
        have h3 := hks.2.2.1
        obtain ⟨g1, g2, g3, acd, g4, g5⟩ := hks
        rw [g1, ok_bind, g2, ok_bind, r pk g3, ok_bind, attestedOf_ok_iff.mpr g4, ok_bind, g5]
        dsimp only
        rw [cryptographyPublicKey_ok_iff.mpr h5, ok_bind, (androidVerify_error_iff h3).mpr h, error_bind]
      | otherKey _ _ c pk k cpk hks h5 h6 h =>
        obtain ⟨g1, g2, g3, acd, g4, g5⟩ := hks
        rw [g1, ok_bind, g2, ok_bind, r pk g3, ok_bind, attestedOf_ok_iff.mpr g4, ok_bind, g5]
        dsimp only
        rw [cryptographyPublicKey_ok_iff.mpr h5, ok_bind, (androidVerify_ok_iff (u := ())).mpr h6, ok_bind,
          require_error_iff.mpr ⟨beq_eq_false_iff_ne.mpr h, rfl⟩, error_bind]
      | extension _ _ c pk k cpk e _ hks h5 h6 h7 h h' =>
        obtain ⟨g1, g2, g3, acd, g4, g5⟩ := hks
        rw [g1, ok_bind, g2, ok_bind, r pk g3, ok_bind, attestedOf_ok_iff.mpr g4, ok_bind, g5]
        dsimp only
        rw [cryptographyPublicKey_ok_iff.mpr h5, ok_bind, (androidVerify_ok_iff (u := ())).mpr h6, ok_bind,
          (require_ok_iff (u := ())).mpr (beq_iff_eq.mpr h7), ok_bind, h, error_bind,
          (catching_translated hn).mpr ⟨e, rfl, h'⟩, error_bind]
      | recognised _ _ c pk k cpk hks h5 h6 h7 h8 =>
        obtain ⟨g1, g2, g3, acd, g4, g5⟩ := hks
        rw [g1, ok_bind, g2, ok_bind, r pk g3, ok_bind, attestedOf_ok_iff.mpr g4, ok_bind, g5]
        dsimp only
        rw [cryptographyPublicKey_ok_iff.mpr h5, ok_bind, (androidVerify_ok_iff (u := ())).mpr h6, ok_bind,
          (require_ok_iff (u := ())).mpr (beq_iff_eq.mpr h7), ok_bind, h8]
        rfl
      | notDer _ _ c pk k cpk ext e _ hks h5 h6 h7 h8 h h' =>
        obtain ⟨g1, g2, g3, acd, g4, g5⟩ := hks
        rw [g1, ok_bind, g2, ok_bind, r pk g3, ok_bind, attestedOf_ok_iff.mpr g4, ok_bind, g5]
        dsimp only
        rw [cryptographyPublicKey_ok_iff.mpr h5, ok_bind, (androidVerify_ok_iff (u := ())).mpr h6, ok_bind,
          (require_ok_iff (u := ())).mpr (beq_iff_eq.mpr h7), ok_bind, h8]
        show (catching (env.decodeDer Asn1.keyDescription ext) isPyAsn1Error .attestation >>= _) = _
        rw [(catching_translated ha).mpr ⟨e, h, h'⟩, error_bind]
      | description _ _ c pk k cpk ext kd hks h5 h6 h7 h8 h9 h =>
        obtain ⟨g1, g2, g3, acd, g4, g5⟩ := hks
        rw [g1, ok_bind, g2, ok_bind, r pk g3, ok_bind, attestedOf_ok_iff.mpr g4, ok_bind, g5]
        dsimp only
        rw [cryptographyPublicKey_ok_iff.mpr h5, ok_bind, (androidVerify_ok_iff (u := ())).mpr h6, ok_bind,
          (require_ok_iff (u := ())).mpr (beq_iff_eq.mpr h7), ok_bind, h8]
        show (catching (env.decodeDer Asn1.keyDescription ext) isPyAsn1Error .attestation >>= _) = _
        rw [catching_ok_iff.mpr h9, ok_bind,
          (checkKeyDescription_error_iff (ht _ _ h9)).mpr ⟨h, rfl⟩, error_bind]

theorem attest_attObj_error_iff {env : Env} (ht : DerTyped env) {stmt : AttStmt}
    {o : AttestationObject} {raw hash : Bytes} {x : Exc} :
    attest env stmt (.attObj o) raw hash = .error x ↔
      AttestRefused env o.authData raw hash stmt x := by
  have hun : ∀ s : AttStmt, s ≠ .none → (∀ sig x5c, s ≠ .fidoU2F sig x5c) →
      (∀ alg sig x5c, s ≠ .androidKey alg sig x5c) →
      ((raise .unimplemented : Py (AttestationType × TrustedPath)) = .error x ↔
        AttestRefused env o.authData raw hash s x) := by
    intro s h1 h2 h3
    constructor
    · intro h; cases h; exact .unimplemented s h1 h2 h3
    · intro h
      cases h with
      | unimplemented => rfl
      | u2f => exact absurd rfl (h2 _ _)
      | android => exact absurd rfl (h3 _ _ _)
  cases stmt with
  | none =>
    constructor
    · intro h; cases h
    · intro h
      cases h with
      | unimplemented _ h => exact absurd rfl h
  | fidoU2F sig x5c =>
    refine Iff.trans attestFidoU2F_error_iff ⟨.u2f sig x5c x, fun h => ?_⟩
    cases h with
    | unimplemented _ _ h => exact absurd rfl (h _ _)
    | u2f _ _ _ h => exact h
  | androidKey alg sig x5c =>
    refine Iff.trans (attestAndroidKey_error_iff ht) ⟨.android alg sig x5c x, fun h => ?_⟩
    cases h with
    | unimplemented _ _ _ h => exact absurd rfl (h _ _ _)
    | android _ _ _ _ h => exact h
  | _ => exact hun _ (by simp) (by simp) (by simp)

end WebAuthn
