import Verif.Lemmas.OutcomeParse

/-!
# Errors of the ceremonies
-/

namespace WebAuthn

open WebAuthn.Spec

/-! ## Attestation objects -/

/-- The part of `parseAttestationObject` inside `try ... except KeyError`. -/
theorem attObj_members_error {env : Env} {v : PyVal} {d : Dict} {x : Exc} (hv : v = .dict d) :
    catching (do
      let authDataV ← dictIndex d (.str "authData")
      let fmtV ← dictIndex d (.str "fmt")
      let attStmtV ← dictIndex d (.str "attStmt")
      match fmtV.asStr? with
      | none => raise .parser
      | some fmtS => do
        let fmt ← catching (Fmt.call fmtS) Exc.isValueError .parser
        match authDataV.asBytes? with
        | none => raise .parser
        | some raw => do
          let authData ← parseAuthenticatorData env raw
          return (authData, fmt, attStmtV, raw) : Py (AuthData × Fmt × PyVal × Bytes))
      Exc.isKeyError .parser = .error x ↔
      ((∀ raw fmt stmt, ¬ AttObjMembers v raw fmt stmt) ∧ x = .lib .parser) ∨
      ∃ raw fmt stmt e, AttObjMembers v raw fmt stmt ∧ AuthDataRefused env raw e ∧
        Translated [.KeyError] .parser e x := by
  subst hv
  have hk : ∀ l : LibErr, ∀ y, Translated [.KeyError] .parser (.lib l) y ↔ y = .lib l := by
    intro l y
    rw [translated_iff (hp1 (fun _ => isKeyError_iff) _)]
    simp [Exc.isKeyError]
  by_cases hm : ∃ raw fmt stmt, AttObjMembers (.dict d) raw fmt stmt
  · obtain ⟨raw, fmt, stmt, d', hd, h1, h2, h3⟩ := hm
    cases hd
    have huniq : ∀ {raw' fmt' stmt'}, AttObjMembers (.dict d) raw' fmt' stmt' → raw' = raw := by
      rintro raw' fmt' stmt' ⟨d', hd, h, -⟩
      cases hd
      have := lookup_unique h h1
      cases this
      rfl
    rw [catching_translated (hp1 fun _ => isKeyError_iff), dictIndex_ok_iff.mpr h1,
      dictIndex_ok_iff.mpr h2, dictIndex_ok_iff.mpr h3]
    simp only [ok_bind, PyVal.asStr?, PyVal.asBytes?]
    have hf : (catching (Fmt.call (fmtCode fmt)) Exc.isValueError .parser) = .ok fmt := by
      rw [catching_ok_iff, fmtCall_ok_iff]
    rw [hf, ok_bind]
    simp only [bind_error_iff, parseAuthenticatorData_error_iff, pure_eq_ok, reduceCtorEq,
      and_false, exists_false, or_false]
    constructor
    · rintro ⟨e, h4, h5⟩
      exact Or.inr ⟨raw, fmt, stmt, e, ⟨d, rfl, h1, h2, h3⟩, h4, h5⟩
    · rintro (⟨h, -⟩ | ⟨raw', fmt', stmt', e, h4, h5, h6⟩)
      · exact absurd ⟨d, rfl, h1, h2, h3⟩ (h raw fmt stmt)
      · rw [huniq h4] at h5
        exact ⟨e, h5, h6⟩
  · have hn : ∀ raw fmt stmt, ¬ AttObjMembers (.dict d) raw fmt stmt :=
      fun raw fmt stmt h => hm ⟨raw, fmt, stmt, h⟩
    have hr : ∀ y, y = .lib .parser ↔ ((∀ raw fmt stmt, ¬ AttObjMembers (.dict d) raw fmt stmt) ∧
        y = .lib .parser) ∨ ∃ raw fmt stmt e, AttObjMembers (.dict d) raw fmt stmt ∧
        AuthDataRefused env raw e ∧ Translated [.KeyError] .parser e y := by
      intro y
      constructor
      · rintro rfl; exact Or.inl ⟨hn, rfl⟩
      · rintro (⟨-, rfl⟩ | ⟨raw, fmt, stmt, _, h, -⟩)
        · rfl
        · exact absurd h (hn raw fmt stmt)
    rw [← hr]
    have hidx : ∀ k y, dictIndex d k = .error y → y = .keyError := by
      intro k y h
      unfold dictIndex at h
      split at h <;> cases h
      rfl
    suffices hs : catching _ Exc.isKeyError .parser = .error (.lib .parser) by
      rw [hs]; simp [eq_comm]
    cases h1 : dictIndex d (.str "authData") with
    | error y => rw [hidx _ _ h1]; rfl
    | ok av =>
    cases h2 : dictIndex d (.str "fmt") with
    | error y => rw [hidx _ _ h2]; rfl
    | ok fv =>
    cases h3 : dictIndex d (.str "attStmt") with
    | error y => rw [hidx _ _ h3]; rfl
    | ok sv =>
    simp only [ok_bind]
    rw [dictIndex_ok_iff] at h1 h2 h3
    cases h4 : fv.asStr? with
    | none => rfl
    | some fs =>
    rw [PyVal.asStr?_eq] at h4
    subst h4
    simp only
    cases h5 : Fmt.call fs with
    | error y =>
      have : y = .valueError := by
        unfold Fmt.call at h5
        repeat' split at h5
        all_goals cases h5
        rfl
      rw [this]; rfl
    | ok fmt =>
    rw [fmtCall_ok_iff] at h5
    subst h5
    simp only [catching, ok_bind]
    cases h6 : av.asBytes? with
    | none => rfl
    | some raw =>
    rw [PyVal.asBytes?_eq] at h6
    subst h6
    exact absurd ⟨d, rfl, h1, h2, h3⟩ (hn raw fmt sv)

theorem cborLoads_error_iff {env : Env} {b : Bytes} {x : Exc} :
    env.cborLoads b = .error x ↔ env.cborLoad b = .error x := by
  unfold Env.cborLoads
  cases h : env.cborLoad b with
  | error e => simp
  | ok p => simp

theorem parseAttestationObject_error_iff {env : Env} {b : Bytes} {x : Exc} :
    parseAttestationObject env b = .error x ↔ AttObjRefused env b x := by
  cases hl : env.cborLoad b with
  | error e =>
    have h1 : parseAttestationObject env b = .error x ↔
        Translated [.CBORDecodeError] .decoding e x := by
      unfold parseAttestationObject
      rw [bind_error_iff, catching_translated (hp1 fun _ => isCborDecodeError_iff),
        cborLoads_error_iff.mpr hl]
      constructor
      · rintro (⟨e', h, h'⟩ | ⟨a, h, -⟩)
        · cases h; exact h'
        · rw [catching_ok_iff] at h; cases h
      · intro h; exact Or.inl ⟨e, rfl, h⟩
    rw [h1]
    clear h1
    constructor
    · intro h; exact .notCbor e x hl h
    · intro h
      cases h with
      | notCbor e' _ h1 h2 => rw [hl] at h1; cases h1; exact h2
      | notObject v rest h1 => rw [hl] at h1; cases h1
      | authData v rest raw fmt stmt e' _ h1 => rw [hl] at h1; cases h1
      | notStatement v rest raw fmt stmt ad h1 => rw [hl] at h1; cases h1
  | ok p =>
    obtain ⟨v, rest⟩ := p
    have hls : catching (env.cborLoads b) Exc.isCborDecodeError .decoding = .ok v := by
      rw [catching_ok_iff, cborLoads_ok_iff]; exact ⟨rest, hl⟩
    have hcase : AttObjRefused env b x ↔
        ((∀ raw fmt stmt, ¬ AttObjMembers v raw fmt stmt) ∧ x = .lib .parser) ∨
        (∃ raw fmt stmt e, AttObjMembers v raw fmt stmt ∧ AuthDataRefused env raw e ∧
          Translated [.KeyError] .parser e x) ∨
        (∃ raw fmt stmt ad, AttObjMembers v raw fmt stmt ∧ AuthDataOf env raw ad ∧
          (∀ sd s, stmt = .dict sd → ¬ AttStmtOf fmt sd s) ∧ x = .lib .parser) := by
      constructor
      · intro h
        cases h with
        | notCbor e _ h1 => rw [hl] at h1; cases h1
        | notObject v rest h1 h2 => rw [hl] at h1; cases h1; exact Or.inl ⟨h2, rfl⟩
        | authData v rest raw fmt stmt e _ h1 h2 h3 h4 =>
          rw [hl] at h1; cases h1; exact Or.inr (Or.inl ⟨raw, fmt, stmt, e, h2, h3, h4⟩)
        | notStatement v rest raw fmt stmt ad h1 h2 h3 h4 =>
          rw [hl] at h1; cases h1; exact Or.inr (Or.inr ⟨raw, fmt, stmt, ad, h2, h3, h4, rfl⟩)
      · rintro (⟨h, rfl⟩ | ⟨raw, fmt, stmt, e, h1, h2, h3⟩ | ⟨raw, fmt, stmt, ad, h1, h2, h3, rfl⟩)
        · exact .notObject v rest hl h
        · exact .authData v rest raw fmt stmt e x hl h1 h2 h3
        · exact .notStatement v rest raw fmt stmt ad hl h1 h2 h3
    rw [hcase]
    unfold parseAttestationObject
    rw [hls, ok_bind]
    cases hd : v.asDict? with
    | none =>
      have hn : ∀ raw fmt stmt, ¬ AttObjMembers v raw fmt stmt := by
        rintro raw fmt stmt ⟨d, rfl, -⟩
        cases hd
      simp only [raise, Except.error.injEq]
      constructor
      · rintro rfl; exact Or.inl ⟨hn, rfl⟩
      · rintro (⟨-, rfl⟩ | ⟨raw, fmt, stmt, e, h, -⟩ | ⟨raw, fmt, stmt, ad, h, -⟩)
        · rfl
        · exact absurd h (hn _ _ _)
        · exact absurd h (hn _ _ _)
    | some d =>
      rw [PyVal.asDict?_eq] at hd
      simp only
      rw [bind_error_iff]
      refine (or_congr (attObj_members_error hd) Iff.rfl).trans ?_
      rw [or_assoc]
      refine or_congr Iff.rfl (or_congr Iff.rfl ?_)
      subst hd
      simp only [Prod.exists, catching_ok_iff, bind_ok_iff, dictIndex_ok_iff]
      constructor
      · rintro ⟨ad, fmt, stmt, raw, ⟨av, h1, fv, h2, sv, h3, h4⟩, h5⟩
        cases hf : fv.asStr? with
        | none => rw [hf] at h4; cases h4
        | some fs =>
        simp only [hf, bind_ok_iff, catching_ok_iff, fmtCall_ok_iff] at h4
        obtain ⟨fmt', hfmt, h4⟩ := h4
        cases hb : av.asBytes? with
        | none => rw [hb] at h4; cases h4
        | some rb =>
        simp only [hb, bind_ok_iff, parseAuthenticatorData_ok_iff, pure_eq_ok, Except.ok.injEq,
          Prod.mk.injEq] at h4
        obtain ⟨ad', had, rfl, rfl, rfl, rfl⟩ := h4
        rw [PyVal.asBytes?_eq] at hb
        rw [PyVal.asStr?_eq] at hf
        subst hb hf hfmt
        refine ⟨rb, fmt', sv, ad', ⟨d, rfl, h1, h2, h3⟩, had, ?_⟩
        cases hs : sv.asDict? with
        | none =>
          rw [hs] at h5
          cases h5
          refine ⟨?_, rfl⟩
          rintro sd s rfl
          cases hs
        | some sd =>
          simp only [hs, bind_error_iff, pure_eq_ok, reduceCtorEq, and_false, exists_false,
            or_false] at h5
          rw [PyVal.asDict?_eq] at hs
          subst hs
          refine ⟨?_, raises_parseAttStmt _ _ _ h5⟩
          rintro sd' s h hst
          cases h
          rw [← parseAttStmt_ok_iff, h5] at hst
          cases hst
      · rintro ⟨raw, fmt, stmt, ad, ⟨d', hd, h1, h2, h3⟩, had, h4, rfl⟩
        cases hd
        refine ⟨ad, fmt, stmt, raw, ⟨_, h1, _, h2, _, h3, ?_⟩, ?_⟩
        · simp only [PyVal.asStr?, bind_ok_iff, catching_ok_iff, fmtCall_ok_iff]
          refine ⟨fmt, rfl, ?_⟩
          simp only [PyVal.asBytes?, bind_ok_iff, parseAuthenticatorData_ok_iff]
          exact ⟨_, had, rfl⟩
        · cases hs : stmt.asDict? with
          | none => rfl
          | some sd =>
            rw [PyVal.asDict?_eq] at hs
            simp only
            cases hp : parseAttStmt fmt sd with
            | ok s => exact absurd (parseAttStmt_ok_iff.mp hp) (h4 sd s hs)
            | error e => rw [raises_parseAttStmt _ _ _ hp]; rfl

/-! ## Signatures -/

theorem ec2CurveClass_error_iff {crv : NV Curve} {x : Exc} :
    ec2CurveClass crv = .error x ↔ (∀ c, ¬ NistCurve crv.id c) ∧ x = .lib .unimplemented := by
  constructor
  · intro h
    refine ⟨fun c hc => ?_, ?_⟩
    · rw [ec2CurveClass_ok_iff.mpr hc] at h; cases h
    · unfold ec2CurveClass at h
      split at h <;> cases h
      rfl
  · rintro ⟨h, rfl⟩
    cases hc : ec2CurveClass crv with
    | ok c => exact absurd (ec2CurveClass_ok_iff.mp hc) (h c)
    | error e =>
      unfold ec2CurveClass at hc
      split at hc <;> cases hc
      rfl

theorem cryptographyPublicKey_error_iff {env : Env} {k : CPK} {x : Exc} :
    cryptographyPublicKey env k = .error x ↔ KeyRefused env k x := by
  have hv := fun e => hp1 (c := .ValueError) (fun _ => isValueError_iff) e
  cases k with
  | base b =>
    constructor
    · intro h; cases h; exact .base b
    · intro h; cases h; rfl
  | ec2 b xx y crv =>
    simp only [cryptographyPublicKey, bind_error_iff, ec2CurveClass_error_iff,
      ec2CurveClass_ok_iff, catching_translated hv, pure_eq_ok, reduceCtorEq, and_false,
      exists_false, or_false]
    constructor
    · rintro (⟨h, rfl⟩ | ⟨c, hc, e, h1, h2⟩)
      · exact .otherCurve b xx y crv h
      · exact .point b xx y crv c _ _ e x hc (bigEndian_beNat xx) (bigEndian_beNat y) h1 h2
    · intro h
      cases h with
      | otherCurve _ _ _ _ h => exact Or.inl ⟨h, rfl⟩
      | point _ _ _ _ c nx ny e _ hc hx hy h1 h2 =>
        rw [bigEndian_iff] at hx hy
        subst hx hy
        exact Or.inr ⟨c, hc, e, h1, h2⟩
  | okp b crv xx =>
    simp only [cryptographyPublicKey, catching_translated hv]
    have hu : ∀ y, Translated [.ValueError] .publicKeyConversion (.lib .unimplemented) y ↔
        y = .lib .unimplemented := by
      intro y
      rw [translated_iff (hv _)]
      simp [Exc.isValueError]
    constructor
    · rintro ⟨e, h1, h2⟩
      split at h1
      · next hc =>
        simp only [bind_error_iff, pure_eq_ok, reduceCtorEq, and_false, exists_false,
          or_false] at h1
        exact .ed25519 b xx crv e x hc h1 h2
      · next hc =>
        simp only [bind_error_iff, pure_eq_ok, reduceCtorEq, and_false, exists_false,
          or_false] at h1
        exact .ed448 b xx crv e x hc h1 h2
      · next hc1 hc2 =>
        cases h1
        rw [hu] at h2
        subst h2
        refine .otherEdwards b xx crv ?_
        rintro (h | h)
        · exact hc1 h
        · exact hc2 h
    · intro h
      cases h with
      | otherEdwards _ _ _ h =>
        refine ⟨.lib .unimplemented, ?_, (hu _).mpr rfl⟩
        split
        · next hc => exact absurd (Or.inl hc) h
        · next hc => exact absurd (Or.inr hc) h
        · rfl
      | ed25519 _ _ _ e _ hc h1 h2 => exact ⟨e, by rw [hc]; simp only [h1]; rfl, h2⟩
      | ed448 _ _ _ e _ hc h1 h2 => exact ⟨e, by rw [hc]; simp only [h1]; rfl, h2⟩

theorem ec2HashAlgorithm_error_iff {alg : NV Alg} {x : Exc} :
    ec2HashAlgorithm alg = .error x ↔ (∀ h, ¬ EcdsaHash alg.id h) ∧ x = .assertionError := by
  constructor
  · intro h
    refine ⟨fun c hc => ?_, ?_⟩
    · rw [ec2HashAlgorithm_ok_iff.mpr hc] at h; cases h
    · unfold ec2HashAlgorithm at h
      split at h <;> cases h
      rfl
  · rintro ⟨h, rfl⟩
    cases hc : ec2HashAlgorithm alg with
    | ok c => exact absurd (ec2HashAlgorithm_ok_iff.mp hc) (h c)
    | error e =>
      unfold ec2HashAlgorithm at hc
      split at hc <;> cases hc
      rfl

theorem verify_error_iff {env : Env} {k : CPK} {sig data : Bytes} {x : Exc} :
    verify env k sig data = .error x ↔ SignatureRefused env k sig data x := by
  have hv := fun e => hp1 (c := .InvalidSignature) (fun _ => isInvalidSignature_iff) e
  cases k with
  | base b =>
    constructor
    · intro h; cases h; exact .key _ _ _ _ (.base b)
    · intro h
      cases h with
      | key _ _ _ _ h => cases h; rfl
  | ec2 b xx y crv =>
    simp only [verify, bind_error_iff, cryptographyPublicKey_ok_iff,
      cryptographyPublicKey_error_iff]
    constructor
    · rintro (h | ⟨pk, hk, h⟩)
      · exact .key _ _ _ _ h
      · cases ha : b.alg with
        | none => rw [ha] at h; cases h; exact .noAlgorithm b xx y crv pk sig data hk ha
        | some alg =>
          simp only [ha, bind_error_iff, ec2HashAlgorithm_error_iff, ec2HashAlgorithm_ok_iff,
            catching_translated hv] at h
          rcases h with ⟨h, rfl⟩ | ⟨hh, h1, e, h2, h3⟩
          · exact .noHash b xx y crv pk alg sig data hk ha h
          · exact .ecdsa b xx y crv pk alg hh sig data e x hk ha h1 h2 h3
    · intro h
      cases h with
      | key _ _ _ _ h => exact Or.inl h
      | noAlgorithm _ _ _ _ pk _ _ hk ha => exact Or.inr ⟨pk, hk, by rw [ha]; rfl⟩
      | noHash _ _ _ _ pk alg _ _ hk ha h =>
        refine Or.inr ⟨pk, hk, ?_⟩
        simp only [ha]
        rw [ec2HashAlgorithm_error_iff.mpr ⟨h, rfl⟩, error_bind]
      | ecdsa _ _ _ _ pk alg hh _ _ e _ hk ha h1 h2 h3 =>
        refine Or.inr ⟨pk, hk, ?_⟩
        simp only [ha]
        rw [ec2HashAlgorithm_ok_iff.mpr h1, ok_bind, catching_translated hv]
        exact ⟨e, h2, h3⟩
  | okp b crv xx =>
    simp only [verify, bind_error_iff, cryptographyPublicKey_ok_iff,
      cryptographyPublicKey_error_iff, catching_translated hv]
    constructor
    · rintro (h | ⟨pk, hk, e, h1, h2⟩)
      · exact .key _ _ _ _ h
      · exact .eddsa b crv xx pk sig data e x hk h1 h2
    · intro h
      cases h with
      | key _ _ _ _ h => exact Or.inl h
      | eddsa _ _ _ pk _ _ e _ hk h1 h2 => exact Or.inr ⟨pk, hk, e, h1, h2⟩

/-! ## Attestation statements -/

theorem attest_key_error_iff {env : Env} {stmt : AttStmt} {k : Option CPK} {raw hash : Bytes}
    {x : Exc} :
    attest env stmt (.key k) raw hash = .error x ↔ StatementRefused env stmt x := by
  have hv := fun e => hp1 (c := .ValueError) (fun _ => isValueError_iff) e
  have hkey : ∀ k, (AttObjArg.key k).authData = .error .attributeError := fun _ => rfl
  have hun : ∀ s : AttStmt, s ≠ .none → (∀ sig x5c, s ≠ .fidoU2F sig x5c) →
      (∀ alg sig x5c, s ≠ .androidKey alg sig x5c) →
      ((raise .unimplemented : Py (AttestationType × TrustedPath)) = .error x ↔
        StatementRefused env s x) := by
    intro s h1 h2 h3
    constructor
    · intro h; cases h; exact .unimplemented s h1 h2 h3
    · intro h
      cases h with
      | unimplemented => rfl
      | u2fPath => exact absurd rfl (h2 _ _)
      | u2fCert => exact absurd rfl (h2 _ _)
      | u2fCertKey => exact absurd rfl (h2 _ _)
      | u2fCurve => exact absurd rfl (h2 _ _)
      | u2f => exact absurd rfl (h2 _ _)
      | androidPath => exact absurd rfl (h3 _ _ _)
      | androidCert => exact absurd rfl (h3 _ _ _)
      | androidCertKey => exact absurd rfl (h3 _ _ _)
      | androidKind => exact absurd rfl (h3 _ _ _)
      | android => exact absurd rfl (h3 _ _ _)
  cases stmt with
  | none =>
    constructor
    · intro h; cases h
    · intro h
      cases h with
      | unimplemented _ h => exact absurd rfl h
  | fidoU2F sig x5c =>
    simp only [attest]
    unfold attestFidoU2F
    split
    · next b =>
      simp only [bind_error_iff, catching_translated hv, catching_ok_iff]
      constructor
      · rintro (⟨e, h1, h2⟩ | ⟨c, h1, h2⟩)
        · exact .u2fCert sig b e x h1 h2
        · rcases h2 with h2 | ⟨pk, h2, h3⟩
          · exact .u2fCertKey sig b c x h1 h2
          · cases pk with
            | ec crv px py =>
              simp only [bind_error_iff, require_error_iff, require_ok_iff, hkey,
                Except.error.injEq, reduceCtorEq, false_and, exists_false, or_false] at h3
              rcases h3 with ⟨h3, rfl⟩ | ⟨_, h3, rfl⟩
              · refine .u2fCurve sig b c _ h1 h2 ?_
                intro x' y' h
                cases h
                exact absurd h3 (by decide)
              · rw [beq_iff_eq] at h3
                subst h3
                exact .u2f sig b c px py h1 h2
            | ed25519 r => cases h3; exact .u2fCurve sig b c _ h1 h2 (by intro x' y' h; cases h)
            | ed448 r => cases h3; exact .u2fCurve sig b c _ h1 h2 (by intro x' y' h; cases h)
            | other r => cases h3; exact .u2fCurve sig b c _ h1 h2 (by intro x' y' h; cases h)
      · intro h
        cases h with
        | unimplemented _ _ h => exact absurd rfl (h _ _)
        | u2fPath _ _ h => exact absurd rfl h
        | u2fCert _ _ e _ h1 h2 => exact Or.inl ⟨e, h1, h2⟩
        | u2fCertKey _ _ c _ h1 h2 => exact Or.inr ⟨c, h1, Or.inl h2⟩
        | u2fCurve _ _ c pk h1 h2 h3 =>
          refine Or.inr ⟨c, h1, Or.inr ⟨pk, h2, ?_⟩⟩
          cases pk with
          | ec crv px py =>
            simp only
            rw [require_false, error_bind]
            rw [beq_iff_eq]
            rintro rfl
            exact h3 px py rfl
          | _ => rfl
        | u2f _ _ c px py h1 h2 => exact Or.inr ⟨c, h1, Or.inr ⟨_, h2, rfl⟩⟩
    · next h =>
      have hl : x5c.length ≠ 1 := by
        intro hl
        rw [List.length_eq_one_iff] at hl
        obtain ⟨b, rfl⟩ := hl
        exact h b rfl
      constructor
      · intro h'; cases h'; exact .u2fPath sig x5c hl
      · intro h'
        cases h' with
        | unimplemented _ _ h => exact absurd rfl (h _ _)
        | u2fPath => rfl
        | u2fCert => exact absurd rfl hl
        | u2fCertKey => exact absurd rfl hl
        | u2fCurve => exact absurd rfl hl
        | u2f => exact absurd rfl hl
  | androidKey alg sig x5c =>
    simp only [attest]
    unfold attestAndroidKey
    cases x5c with
    | nil =>
      constructor
      · intro h; cases h; exact .androidPath alg sig
      · intro h
        cases h with
        | unimplemented _ _ _ h => exact absurd rfl (h _ _ _)
        | androidPath => rfl
    | cons b l =>
      simp only [bind_error_iff, require_error_iff, require_ok_iff, hkey, Except.error.injEq,
        reduceCtorEq, false_and, exists_false, or_false]
      constructor
      · rintro (h | ⟨c, h1, h | ⟨pk, h2, ⟨h3, rfl⟩ | ⟨-, h3, rfl⟩⟩⟩)
        · exact .androidCert alg sig b l x h
        · exact .androidCertKey alg sig b l c x h1 h
        · cases pk with
          | other n => exact .androidKind alg sig b l c n h1 h2
          | _ => cases h3
        · refine .android alg sig b l c pk h1 h2 ?_
          rintro n rfl
          cases h3
      · intro h
        cases h with
        | unimplemented _ _ _ h => exact absurd rfl (h _ _ _)
        | androidCert _ _ _ _ _ h => exact Or.inl h
        | androidCertKey _ _ _ _ c _ h1 h2 => exact Or.inr ⟨c, h1, Or.inl h2⟩
        | androidKind _ _ _ _ c n h1 h2 => exact Or.inr ⟨c, h1, Or.inr ⟨_, h2, Or.inl ⟨rfl, rfl⟩⟩⟩
        | android _ _ _ _ c pk h1 h2 h3 =>
          refine Or.inr ⟨c, h1, Or.inr ⟨pk, h2, Or.inr ⟨(), ?_, rfl⟩⟩⟩
          cases pk with
          | other n => exact absurd rfl (h3 n)
          | _ => rfl
  | packed _ _ => exact hun _ (by simp) (by simp) (by simp)
  | packedX509 _ _ _ => exact hun _ (by simp) (by simp) (by simp)
  | packedECDAA _ _ _ => exact hun _ (by simp) (by simp) (by simp)
  | tpm _ _ _ _ _ => exact hun _ (by simp) (by simp) (by simp)
  | tpmX509 _ _ _ _ _ _ => exact hun _ (by simp) (by simp) (by simp)
  | tpmECDAA _ _ _ _ _ _ => exact hun _ (by simp) (by simp) (by simp)
  | safetyNet _ _ => exact hun _ (by simp) (by simp) (by simp)

/-! ## The checks of the ceremonies -/

theorem checkAuthData_error_iff {env : Env} {raw : Bytes} {ad : AuthData} {rpId : String}
    {uv : Bool} {expected : Option (List ExtId)} {x : Exc} (had : AuthDataOf env raw ad) :
    checkAuthData ad (env.sha256 (utf8Encode rpId)) uv expected = .error x ↔
      ∃ l, AuthFails env raw ad rpId uv expected l ∧ x = .lib l := by
  constructor
  · intro h
    rcases auth_dichotomy rpId uv expected had with h1 | ⟨l, h1⟩
    · rw [(checkAuthData_ok_iff (u := ()) had).mpr h1] at h; cases h
    · rw [checkAuthData_fails h1] at h; cases h; exact ⟨l, h1, rfl⟩
  · rintro ⟨l, h1, rfl⟩
    exact checkAuthData_fails h1

theorem attestedOf_error_iff {ad : AuthData} {x : Exc} :
    attestedOf ad = .error x ↔ ad.attested = none ∧ x = .assertionError := by
  unfold attestedOf
  cases ad.attested <;> simp [eq_comm]

theorem resolveUser_error_iff {user : Option UserEntity} {reg : UserEntity} {cdj raw sig : Bytes}
    {handle : Option Bytes} {x : Exc} :
    resolveUser user reg (.assertion cdj raw sig handle) = .error x ↔
      ∃ l, UserFails reg user handle l ∧ x = .lib l := by
  constructor
  · intro h
    rcases user_dichotomy reg user handle with ⟨u, h1⟩ | ⟨l, h1⟩
    · rw [resolveUser_ok_iff.mpr h1] at h; cases h
    · rw [resolveUser_fails h1] at h; cases h; exact ⟨l, h1, rfl⟩
  · rintro ⟨l, h1, rfl⟩
    exact resolveUser_fails h1

theorem resolveUser_attestation_error {user : Option UserEntity} {reg : UserEntity}
    {cdj o : Bytes} {x : Exc} :
    resolveUser user reg (.attestation cdj o) = .error x ↔
      (∃ u, user = some u ∧ u.id ≠ reg.id ∧ x = .lib .userId) ∨
      (∀ u, user = some u → u.id = reg.id) ∧ x = .attributeError := by
  cases user with
  | none =>
    have : resolveUser none reg (.attestation cdj o) = .error .attributeError := rfl
    rw [this]
    simp [eq_comm]
  | some u =>
    by_cases hu : u.id = reg.id
    · have : resolveUser (some u) reg (.attestation cdj o) = .error .attributeError := by
        unfold resolveUser effectiveUser
        simp only
        rw [require_true (by simpa using hu.symm)]
        rfl
      rw [this]
      simp [hu, eq_comm]
    · have : resolveUser (some u) reg (.attestation cdj o) = .error (.lib .userId) := by
        unfold resolveUser effectiveUser
        simp only
        rw [require_false (by simpa using Ne.symm hu)]
        rfl
      rw [this]
      constructor
      · intro h; cases h; exact Or.inl ⟨u, rfl, hu, rfl⟩
      · rintro (⟨_, -, -, rfl⟩ | ⟨h, -⟩)
        · rfl
        · exact absurd (h u rfl) hu

theorem resolveRp_error_iff {rp reg : Option RpEntity} {x : Exc} :
    resolveRp rp reg = .error x ↔ ∃ l, RpFails reg rp l ∧ x = .lib l := by
  constructor
  · intro h
    rcases rp_dichotomy reg rp with ⟨u, h1⟩ | ⟨l, h1⟩
    · rw [resolveRp_ok_iff.mpr h1] at h; cases h
    · rw [resolveRp_fails h1] at h; cases h; exact ⟨l, h1, rfl⟩
  · rintro ⟨l, h1, rfl⟩
    exact resolveRp_fails h1

theorem checkSignCount_error_iff {env : Env} {raw : Bytes} {ad : AuthData} {stored : Option Int}
    {ignore : Bool} {x : Exc} (had : AuthDataOf env raw ad) :
    checkSignCount stored ad.signCount ignore = .error x ↔
      ¬ CounterOk stored raw ignore ∧ x = .lib .signatureCount := by
  constructor
  · intro h
    by_cases h1 : CounterOk stored raw ignore
    · rw [(checkSignCount_ok_iff (u := ()) had).mpr h1] at h; cases h
    · rw [checkSignCount_fails had h1] at h; cases h; exact ⟨h1, rfl⟩
  · rintro ⟨h1, rfl⟩
    exact checkSignCount_fails had h1

theorem attestationChecks_error_iff {env : Env} {a : AttestationArgs} {x : Exc} :
    attestationChecks env a = .error x ↔ RegistrationRefused env a x := by
  constructor
  · unfold attestationChecks
    cases ha : extractAllowedOrigins env a.expectedOrigin with
    | error e =>
      intro h
      cases h
      exact .expected x (extractAllowedOrigins_error_iff.mp ha)
    | ok allowed =>
    have he : ExpectedOk env a.expectedOrigin := expectedOk_iff.mpr ⟨_, ha⟩
    rw [ok_bind]
    cases hr : a.credential.response with
    | assertion cdj raw sig handle =>
      simp only [Response.clientDataJSON, Response.attestationObject, bind_error_iff,
        checkClientData_error_iff ha, checkClientData_ok_iff ha]
      rintro (h | ⟨_, h1, ⟨-, h⟩ | ⟨_, h, -⟩⟩)
      · exact .client cdj x he (Or.inr ⟨raw, sig, handle, hr⟩) h
      · exact .wrongResponse cdj raw sig handle he hr h1
      · cases h
    | attestation cdj ob =>
      simp only [Response.clientDataJSON, Response.attestationObject, ok_bind]
      rw [bind_error_iff]
      rintro (h | ⟨_, h1, h⟩)
      · exact .client cdj x he (Or.inl ⟨ob, hr⟩) ((checkClientData_error_iff ha).mp h)
      rw [checkClientData_ok_iff ha] at h1
      rw [bind_error_iff] at h
      rcases h with h | ⟨⟨o, raw⟩, h2, h⟩
      · exact .object cdj ob x he hr h1 (parseAttestationObject_error_iff.mp h)
      rw [parseAttestationObject_ok_iff] at h2
      simp only at h
      have had : AuthDataOf env raw o.authData := by
        obtain ⟨_, _, _, _, _, h3, -⟩ := h2
        exact h3
      rw [bind_error_iff] at h
      rcases h with h | ⟨_, h3, h⟩
      · obtain ⟨l, h3, rfl⟩ := (checkAuthData_error_iff had).mp h
        exact .authData cdj ob raw o l he hr h1 h2 h3
      rw [checkAuthData_ok_iff had] at h3
      rw [bind_error_iff] at h
      rcases h with h | ⟨acd, h4, h⟩
      · obtain ⟨h4, rfl⟩ := attestedOf_error_iff.mp h
        exact .notAttested cdj ob raw o he hr h1 h2 h3 h4
      rw [attestedOf_ok_iff] at h4
      rw [bind_error_iff] at h
      rcases h with h | ⟨p, -, h⟩
      · exact .statement o raw x he ⟨cdj, ob, hr, h1, h2, h3, by rw [h4]; simp⟩
          (attest_key_error_iff.mp h)
      · cases h
  · intro h
    unfold attestationChecks
    cases h with
    | expected _ h => rw [extractAllowedOrigins_error_iff.mpr h, error_bind]
    | client cdj _ he hr h =>
      obtain ⟨allowed, ha⟩ := expectedOk_iff.mp he
      have : a.credential.response.clientDataJSON = cdj := by
        rcases hr with ⟨ob, hr⟩ | ⟨raw, sig, handle, hr⟩ <;> rw [hr] <;> rfl
      rw [ha, ok_bind, this]
      simp only
      rw [(checkClientData_error_iff ha).mpr h, error_bind]
    | wrongResponse cdj raw sig handle he hr h =>
      obtain ⟨allowed, ha⟩ := expectedOk_iff.mp he
      rw [ha, ok_bind, hr]
      simp only [Response.clientDataJSON]
      rw [(checkClientData_ok_iff (u := ()) ha).mpr h]
      rfl
    | object cdj ob _ he hr h1 h2 =>
      obtain ⟨allowed, ha⟩ := expectedOk_iff.mp he
      rw [ha, ok_bind, hr]
      simp only [Response.clientDataJSON, Response.attestationObject, ok_bind]
      rw [(checkClientData_ok_iff (u := ()) ha).mpr h1, ok_bind,
        parseAttestationObject_error_iff.mpr h2, error_bind]
    | authData cdj ob raw o l he hr h1 h2 h3 =>
      obtain ⟨allowed, ha⟩ := expectedOk_iff.mp he
      rw [ha, ok_bind, hr]
      simp only [Response.clientDataJSON, Response.attestationObject, ok_bind]
      rw [(checkClientData_ok_iff (u := ()) ha).mpr h1, ok_bind,
        parseAttestationObject_ok_iff.mpr h2, ok_bind]
      simp only [checkAuthData_fails h3, error_bind]
    | notAttested cdj ob raw o he hr h1 h2 h3 h4 =>
      obtain ⟨allowed, ha⟩ := expectedOk_iff.mp he
      rw [ha, ok_bind, hr]
      simp only [Response.clientDataJSON, Response.attestationObject, ok_bind]
      rw [(checkClientData_ok_iff (u := ()) ha).mpr h1, ok_bind,
        parseAttestationObject_ok_iff.mpr h2, ok_bind]
      simp only [(checkAuthData_ok_iff (u := ()) h3.1).mpr h3, ok_bind,
        attestedOf_error_iff.mpr ⟨h4, rfl⟩, error_bind]
    | statement o raw _ he h h' =>
      obtain ⟨allowed, ha⟩ := expectedOk_iff.mp he
      obtain ⟨cdj, ob, hr, h1, h2, h3, h4⟩ := h
      obtain ⟨acd, h4⟩ := Option.ne_none_iff_exists'.mp h4
      rw [ha, ok_bind, hr]
      simp only [Response.clientDataJSON, Response.attestationObject, ok_bind]
      rw [(checkClientData_ok_iff (u := ()) ha).mpr h1, ok_bind,
        parseAttestationObject_ok_iff.mpr h2, ok_bind]
      simp only [(checkAuthData_ok_iff (u := ()) h3.1).mpr h3, ok_bind,
        attestedOf_ok_iff.mpr h4, attest_key_error_iff.mpr h', error_bind]

theorem assertionPre_error_iff {env : Env} {a : AssertionArgs} {x : Exc} :
    assertionPre env a = .error x ↔ EarlyRefused env a x := by
  unfold assertionPre
  rw [bind_error_iff, extractAllowedOrigins_error_iff]
  constructor
  · rintro (h | ⟨allowed, ha, h⟩)
    · exact .expected x h
    · split at h
      · cases h
      · next l hl =>
        rw [bind_error_iff] at h
        rcases h with h | ⟨_, -, h⟩
        · rw [require_error_iff] at h
          obtain ⟨h, rfl⟩ := h
          refine .notAllowed (expectedOk_iff.mpr ⟨_, ha⟩) ?_
          rw [allowOk_iff]
          intro h'
          rw [h' l hl] at h
          cases h
        · cases h
  · intro h
    cases h with
    | expected _ h => exact Or.inl h
    | notAllowed he h =>
      obtain ⟨allowed, ha⟩ := expectedOk_iff.mp he
      refine Or.inr ⟨allowed, ha, ?_⟩
      rw [allowOk_iff] at h
      split
      · next hl => rw [hl] at h; simp at h
      · next l hl =>
        rw [require_false, error_bind]
        intro h'
        refine h fun l' hl' => ?_
        rw [hl] at hl'
        cases hl'
        exact h'

theorem assertionChecks_error_iff {env : Env} {a : AssertionArgs} {allowed : List Origin}
    {cd : CredentialData} {x : Exc} (ha : extractAllowedOrigins env a.expectedOrigin = .ok allowed) :
    assertionChecks env a allowed cd = .error x ↔ AuthenticationRefused env a cd x := by
  constructor
  · unfold assertionChecks
    cases hr : a.credential.response with
    | attestation cdj ob =>
      simp only
      rw [bind_error_iff, resolveUser_attestation_error]
      rintro ((⟨u, h1, h2, rfl⟩ | ⟨h1, rfl⟩) | ⟨u, h, -⟩)
      · exact .wrongUser cdj ob u hr h1 h2
      · exact .wrongResponse cdj ob hr h1
      · exact absurd h resolveUser_attestation
    | assertion cdj raw sig handle =>
      simp only [Response.clientDataJSON, Response.authenticatorData, Response.signature, ok_bind]
      intro h
      rw [bind_error_iff] at h
      rcases h with h | ⟨u, h1, h⟩
      · obtain ⟨l, h1, rfl⟩ := resolveUser_error_iff.mp h
        exact .check cdj raw sig handle l hr (.user l h1)
      rw [resolveUser_ok_iff] at h1
      rw [bind_error_iff] at h
      rcases h with h | ⟨rp, h2, h⟩
      · obtain ⟨l, h2, rfl⟩ := resolveRp_error_iff.mp h
        exact .check cdj raw sig handle l hr (.rp u l h1 h2)
      rw [resolveRp_ok_iff] at h2
      rw [bind_error_iff] at h
      rcases h with h | ⟨_, h3, h⟩
      · exact .client cdj raw sig handle u rp x hr h1 h2 ((checkClientData_error_iff ha).mp h)
      rw [checkClientData_ok_iff ha] at h3
      rw [bind_error_iff] at h
      rcases h with h | ⟨ad, had, h⟩
      · exact .authData cdj raw sig handle u rp x hr h1 h2 h3
          (parseAuthenticatorData_error_iff.mp h)
      rw [parseAuthenticatorData_ok_iff] at had
      rw [bind_error_iff] at h
      rcases h with h | ⟨_, h4, h⟩
      · obtain ⟨l, h4, rfl⟩ := (checkAuthData_error_iff had).mp h
        exact .check cdj raw sig handle l hr (.auth u rp ad l h1 h2 h3 h4)
      rw [checkAuthData_ok_iff had] at h4
      rw [bind_error_iff] at h
      rcases h with h | ⟨_, h5, h⟩
      · exact .signature cdj raw sig handle u rp ad x hr h1 h2 h3 h4 (verify_error_iff.mp h)
      rw [verify_ok_iff] at h5
      rw [bind_error_iff] at h
      rcases h with h | ⟨_, -, h⟩
      · obtain ⟨h6, rfl⟩ := (checkSignCount_error_iff had).mp h
        exact .check cdj raw sig handle _ hr (.signatureCount u rp ad h1 h2 h3 h4 h5 h6)
      · cases h
  · intro h
    cases h with
    | check cdj raw sig handle l hr h => exact assertionChecks_fails ha hr h
    | wrongUser cdj ob u hr h1 h2 =>
      unfold assertionChecks
      rw [hr]
      simp only
      rw [resolveUser_attestation_error.mpr (Or.inl ⟨u, h1, h2, rfl⟩), error_bind]
    | wrongResponse cdj ob hr h1 =>
      unfold assertionChecks
      rw [hr]
      simp only
      rw [resolveUser_attestation_error.mpr (Or.inr ⟨h1, rfl⟩), error_bind]
    | client cdj raw sig handle u rp _ hr h1 h2 h3 =>
      unfold assertionChecks
      rw [hr]
      simp only [Response.clientDataJSON]
      rw [resolveUser_ok_iff.mpr h1, ok_bind, resolveRp_ok_iff.mpr h2, ok_bind,
        (checkClientData_error_iff ha).mpr h3, error_bind]
    | authData cdj raw sig handle u rp _ hr h1 h2 h3 h4 =>
      unfold assertionChecks
      rw [hr]
      simp only [Response.clientDataJSON, Response.authenticatorData, ok_bind]
      rw [resolveUser_ok_iff.mpr h1, ok_bind, resolveRp_ok_iff.mpr h2, ok_bind,
        (checkClientData_ok_iff (u := ()) ha).mpr h3, ok_bind,
        parseAuthenticatorData_error_iff.mpr h4, error_bind]
    | signature cdj raw sig handle u rp ad _ hr h1 h2 h3 h4 h5 =>
      unfold assertionChecks
      rw [hr]
      simp only [Response.clientDataJSON, Response.authenticatorData, Response.signature, ok_bind]
      rw [resolveUser_ok_iff.mpr h1, ok_bind, resolveRp_ok_iff.mpr h2, ok_bind,
        (checkClientData_ok_iff (u := ()) ha).mpr h3, ok_bind,
        parseAuthenticatorData_ok_iff.mpr h4.1, ok_bind,
        (checkAuthData_ok_iff (u := ()) h4.1).mpr h4, ok_bind, verify_error_iff.mpr h5, error_bind]

/-! ## Outcomes -/

theorem finalise_checkWrite_iff {w : Py (Option String)} {r : Py Unit} :
    finalise (checkWrite w) = r ↔ Wrote w r := by
  constructor
  · rintro rfl
    cases w with
    | ok o =>
      cases o with
      | none => exact .done
      | some m => exact .refused m
    | error e =>
      by_cases h : e.isException = true
      · have : finalise (checkWrite (.error e)) = .error (.lib .registration) := by
          simp only [checkWrite, if_pos h]; rfl
        rw [this]
        exact .raised e (isException_iff.mp h)
      · have h2 : ¬ IsInstance e .Exception := mt isException_iff.mpr h
        have : finalise (checkWrite (.error e)) = .error e := by
          simp only [checkWrite, if_neg h]
          exact finalise_error_iff.mpr (.passes h2)
        rw [this]
        exact .passes e h2
  · intro h
    cases h with
    | done => rfl
    | refused m => rfl
    | raised e h => simp only [checkWrite, if_pos (isException_iff.mpr h)]; rfl
    | passes e h =>
      simp only [checkWrite, if_neg (mt isException_iff.mp h)]
      exact finalise_error_iff.mpr (.passes h)

theorem checkRead_error_iff {f : Py (Option CredentialData)} {x : Exc} :
    checkRead f = .error x ↔ NotFound f x := by
  cases f with
  | ok o =>
    cases o with
    | none =>
      constructor
      · intro h; cases h; exact .unknown
      · intro h; cases h; rfl
    | some cd =>
      constructor
      · intro h; cases h
      · intro h; cases h
  | error e =>
    simp only [checkRead]
    constructor
    · intro h
      split at h
      · next h1 => cases h; exact .raised e (isException_iff.mp h1)
      · next h1 => cases h; exact .passes _ (mt isException_iff.mpr h1)
    · intro h
      cases h with
      | raised _ h => rw [if_pos (isException_iff.mpr h)]; rfl
      | passes _ h => rw [if_neg (mt isException_iff.mp h)]

theorem finalise_notFound {f : Py (Option CredentialData)} {x : Exc} (h : NotFound f x) :
    (finalise (.error x) : Py Unit) = .error x := by
  cases h with
  | unknown => rfl
  | raised => rfl
  | passes e h => exact finalise_error_iff.mpr (.passes h)

theorem attestation_outcome {σ : Type} {env : Env} {reg : Registrar σ} {a : AttestationArgs}
    {s s' : σ} {r : Py Unit} :
    handleAttestation env reg a s = (r, s') ↔ RegistrationOutcome env reg a s r s' := by
  constructor
  · intro h
    unfold handleAttestation at h
    split at h
    · next e he =>
      rw [Prod.mk.injEq] at h
      obtain ⟨h, rfl⟩ := h
      cases r with
      | ok u => exact absurd h finalise_ne_ok
      | error y =>
        exact .refused e y (attestationChecks_error_iff.mp he) (finalise_error_iff.mp h)
    · next rec hrec =>
      cases hw : reg.registerAttestation rec s with
      | mk w s1 =>
      rw [hw] at h
      simp only [Prod.mk.injEq] at h
      obtain ⟨h, rfl⟩ := h
      obtain ⟨h1, ⟨raw, h2⟩, h3, h4, h5, h6, h7, h8⟩ := attestationChecks_ok_iff.mp hrec
      obtain ⟨cred, att, ty, user, rp, path⟩ := rec
      simp only at h2 h3 h4 h5 h6 h7 h8
      subst h4 h5 h6 h7 h8
      exact .written att raw w s1 r h1 h2 h3 hw (finalise_checkWrite_iff.mp h)
  · intro h
    unfold handleAttestation
    cases h with
    | refused x y h1 h2 =>
      rw [attestationChecks_error_iff.mpr h1]
      simp only
      rw [finalise_error_iff.mpr h2]
    | written o raw w _ _ h1 h2 h3 h4 h5 =>
      have : attestationChecks env a = .ok ⟨a.credential, o, .NONE, a.user, a.rp, none⟩ :=
        attestationChecks_ok_iff.mpr ⟨h1, ⟨raw, h2⟩, h3, rfl, rfl, rfl, rfl, rfl⟩
      rw [this]
      simp only [h4]
      rw [finalise_checkWrite_iff.mpr h5]

theorem assertion_outcome {σ : Type} {env : Env} {reg : Registrar σ} {a : AssertionArgs}
    {s s' : σ} {r : Py Unit} :
    handleAssertion env reg a s = (r, s') ↔ AuthenticationOutcome env reg a s r s' := by
  constructor
  · intro h
    cases hp : assertionPre env a with
    | error e =>
      rw [handleAssertion_pre hp, Prod.mk.injEq] at h
      obtain ⟨h, rfl⟩ := h
      cases r with
      | ok u => exact absurd h finalise_ne_ok
      | error y => exact .early e y (assertionPre_error_iff.mp hp) (finalise_error_iff.mp h)
    | ok allowed =>
    obtain ⟨ha, hal⟩ := assertionPre_ok_iff.mp hp
    have he : ExpectedOk env a.expectedOrigin := expectedOk_iff.mpr ⟨_, ha⟩
    cases hg : reg.getCredentialData a.credential.rawId s with
    | mk f s1 =>
    cases hf : checkRead f with
    | error e =>
      rw [handleAssertion_read hp hg hf, Prod.mk.injEq] at h
      obtain ⟨h, rfl⟩ := h
      rw [checkRead_error_iff] at hf
      rw [finalise_notFound hf] at h
      subst h
      exact .notFound f s1 _ he hal hg hf
    | ok cd =>
    rw [checkRead_ok_iff] at hf
    subst hf
    cases hc : assertionChecks env a allowed cd with
    | error e =>
      rw [handleAssertion_checks hp hg hc, Prod.mk.injEq] at h
      obtain ⟨h, rfl⟩ := h
      cases r with
      | ok u => exact absurd h finalise_ne_ok
      | error y =>
        exact .refused cd s1 e y he hal hg ((assertionChecks_error_iff ha).mp hc)
          (finalise_error_iff.mp h)
    | ok rec =>
    cases hw : reg.registerAssertion rec s1 with
    | mk w s2 =>
    rw [handleAssertion_write hp hg hc hw, Prod.mk.injEq] at h
    obtain ⟨h, rfl⟩ := h
    obtain ⟨h1, h2⟩ := (assertionChecks_ok_iff ha).mp hc
    obtain ⟨cred, ad, u, rp⟩ := rec
    simp only at h1 h2
    subst h1
    exact .written cd s1 s2 u rp ad w r he hal hg h2 hw (finalise_checkWrite_iff.mp h)
  · intro h
    cases h with
    | early x y h1 h2 =>
      rw [handleAssertion_pre (assertionPre_error_iff.mpr h1), finalise_error_iff.mpr h2]
    | notFound f _ x he hal hg hf =>
      obtain ⟨allowed, ha⟩ := expectedOk_iff.mp he
      rw [handleAssertion_read (assertionPre_ok_iff.mpr ⟨ha, hal⟩) hg (checkRead_error_iff.mpr hf),
        finalise_notFound hf]
    | refused cd _ x y he hal hg h1 h2 =>
      obtain ⟨allowed, ha⟩ := expectedOk_iff.mp he
      rw [handleAssertion_checks (assertionPre_ok_iff.mpr ⟨ha, hal⟩) hg
        ((assertionChecks_error_iff ha).mpr h1), finalise_error_iff.mpr h2]
    | written cd s1 _ u rp ad w _ he hal hg h1 h2 h3 =>
      obtain ⟨allowed, ha⟩ := expectedOk_iff.mp he
      rw [handleAssertion_write (assertionPre_ok_iff.mpr ⟨ha, hal⟩) hg
        ((assertionChecks_ok_iff (r := ⟨a.credential, ad, u, rp⟩) ha).mpr ⟨rfl, h1⟩) h2,
        finalise_checkWrite_iff.mpr h3]

end WebAuthn
