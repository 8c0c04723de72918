import Verif.Spec.Failure
import Verif.Lemmas.Backend
import Verif.Lemmas.Errors

/-!
# Errors of the ceremony checks
-/

namespace WebAuthn

open WebAuthn.Spec

theorem require_false {b : Bool} {e : LibErr} (h : ¬ b = true) : require b e = .error (.lib e) := by
  cases b with
  | false => rfl
  | true => exact absurd rfl h

theorem require_true {b : Bool} {e : LibErr} (h : b = true) : require b e = .ok () := by
  rw [h]; rfl

theorem checkTokenBinding_fails {e : Option TokenBinding} {g : Option ClientTokenBinding}
    (h : ¬ TokenBindingOk e g) : checkTokenBinding e g = .error (.lib .tokenBinding) := by
  cases hc : checkTokenBinding e g with
  | ok u => exact absurd (checkTokenBinding_ok_iff.mp hc) h
  | error x =>
    unfold checkTokenBinding at hc
    split at hc
    · split at hc
      · cases hc; rfl
      · rw [bind_error_iff] at hc
        rcases hc with hc | ⟨_, -, hc⟩ <;> rw [require_error_iff] at hc <;> rw [hc.2]
    · rw [require_error_iff] at hc; rw [hc.2]

theorem checkClientData_fails {env : Env} {cdj : Bytes} {type : String} {ch : Bytes}
    {e : ExpectedOrigin} {allowed : List Origin} {tb : Option TokenBinding} {x : LibErr}
    (ha : extractAllowedOrigins env e = .ok allowed) (h : ClientFails env cdj type ch e tb x) :
    checkClientData env cdj type ch allowed tb = .error (.lib x) := by
  unfold checkClientData
  cases h with
  | type cd h1 h2 =>
    rw [parseClientData_ok_iff.mpr h1, ok_bind, require_false (by simpa using h2), error_bind]
  | decoding cd h1 h2 h3 =>
    rw [parseClientData_ok_iff.mpr h1, ok_bind, require_true (by simpa using h2), ok_bind]
    cases hd : urlBase64Decode cd.challenge with
    | ok c => exact absurd (urlBase64Decode_ok_iff.mp hd) (h3 c)
    | error x =>
      have : checkChallenge cd.challenge ch = .error (.lib .decoding) := by
        simp only [checkChallenge, hd, error_bind, catching, urlBase64Decode_error hd, if_true]
      rw [this, error_bind]
  | challenge cd c h1 h2 h3 h4 =>
    rw [parseClientData_ok_iff.mpr h1, ok_bind, require_true (by simpa using h2), ok_bind]
    have : checkChallenge cd.challenge ch = .error (.lib .challenge) := by
      simp only [checkChallenge, urlBase64Decode_ok_iff.mpr h3, ok_bind, catching]
      rw [require_false (by simpa using h4)]
      rfl
    rw [this, error_bind]
  | origin cd o h1 h2 h3 h4 h5 =>
    rw [parseClientData_ok_iff.mpr h1, ok_bind, require_true (by simpa using h2), ok_bind,
      (checkChallenge_ok_iff (u := ())).mpr h3, ok_bind, parseOrigin_ok_iff.mpr h4, ok_bind,
      require_false, error_bind]
    rw [List.contains_iff_mem, mem_allowed_iff ha]
    exact fun h => h5 ⟨o, h4, h⟩
  | tokenBinding cd h1 h2 h3 h4 h5 =>
    obtain ⟨o, h6, h7⟩ := h4
    rw [parseClientData_ok_iff.mpr h1, ok_bind, require_true (by simpa using h2), ok_bind,
      (checkChallenge_ok_iff (u := ())).mpr h3, ok_bind, parseOrigin_ok_iff.mpr h6, ok_bind,
      require_true, ok_bind, checkTokenBinding_fails h5]
    rw [List.contains_iff_mem, mem_allowed_iff ha]
    exact h7

theorem checkAuthData_fails {env : Env} {raw : Bytes} {ad : AuthData} {rpId : String}
    {uv : Bool} {expected : Option (List ExtId)} {x : LibErr}
    (h : AuthFails env raw ad rpId uv expected x) :
    checkAuthData ad (env.sha256 (utf8Encode rpId)) uv expected = .error (.lib x) := by
  have hrp : AuthDataOf env raw ad →
      ((ad.rpIdHash == env.sha256 (utf8Encode rpId)) = true ↔ RpHashOk env raw rpId) := by
    intro had
    simp only [beq_iff_eq, RpHashOk, Utf8, exists_eq_left, ← (authDataOf_head had).1]
    exact Iff.rfl
  have hup : AuthDataOf env raw ad → ((flagUP &&& ad.flags != 0) = true ↔ FlagSet raw 0) :=
    fun had => (flagSet_iff had 0).symm
  have huv : AuthDataOf env raw ad →
      ((!uv || flagUV &&& ad.flags != 0) = true ↔ (uv = true → FlagSet raw 2)) := by
    intro had
    have := (flagSet_iff had 2).symm
    cases uv with
    | false => simp
    | true =>
      simp only [Bool.not_true, Bool.false_or, forall_const]
      exact this
  unfold checkAuthData
  cases h with
  | rpIdHash had h1 => rw [require_false (mt (hrp had).mp h1), error_bind]
  | userPresence had h1 h2 =>
    rw [require_true ((hrp had).mpr h1), ok_bind, require_false (mt (hup had).mp h2), error_bind]
  | userVerification had h1 h2 h3 h4 =>
    rw [require_true ((hrp had).mpr h1), ok_bind, require_true ((hup had).mpr h2), ok_bind,
      require_false (mt (huv had).mp fun h => h4 (h h3)), error_bind]
  | extension had h1 h2 h3 h4 =>
    rw [require_true ((hrp had).mpr h1), ok_bind, require_true ((hup had).mpr h2), ok_bind,
      require_true ((huv had).mpr h3), ok_bind]
    cases hc : checkExtensions expected ad.extensions with
    | ok u => exact absurd (checkExtensions_ok_iff.mp hc) h4
    | error x =>
      unfold checkExtensions at hc
      split at hc
      · cases hc
      · rw [require_error_iff] at hc; rw [hc.2]

theorem resolveUser_fails {user : Option UserEntity} {reg : UserEntity} {cdj raw sig : Bytes}
    {handle : Option Bytes} {x : LibErr} (h : UserFails reg user handle x) :
    resolveUser user reg (.assertion cdj raw sig handle) = .error (.lib x) := by
  unfold resolveUser
  cases h with
  | otherUser u _ h =>
    rw [effectiveUser, require_false (by simpa using Ne.symm h), error_bind, error_bind]
  | noHandle => rfl
  | otherHandle _ hd h1 h2 =>
    cases user with
    | none =>
      simp only [effectiveUser, Response.userHandle, ok_bind, require_true, Option.isSome_some,
        pure_eq_ok]
      rw [require_false (by simpa using h2), error_bind]
    | some u =>
      simp only [effectiveUser, Response.userHandle, ok_bind, pure_eq_ok]
      rw [require_true (by simpa using (h1 u rfl).symm), ok_bind, ok_bind,
        require_false (by simpa [h1 u rfl] using h2), error_bind]

theorem resolveRp_fails {rp reg : Option RpEntity} {x : LibErr} (h : RpFails reg rp x) :
    resolveRp rp reg = .error (.lib x) := by
  cases h with
  | notFound => rfl
  | other r rp h => rw [resolveRp, require_false (by simpa using h), error_bind]

theorem verify_fails {env : Env} {k : CPK} {sig data : Bytes} (h : BadSignature env k sig data) :
    verify env k sig data = .error (.lib .verification) := by
  cases h with
  | ecdsa b x y crv pk alg hh _ _ h1 h2 h3 h4 =>
    rw [verify, cryptographyPublicKey_ok_iff.mpr h1, ok_bind, h2]
    simp only [ec2HashAlgorithm_ok_iff.mpr h3, ok_bind, h4, catching, isInvalidSignature, if_true]
  | eddsa b crv x pk _ _ h1 h2 =>
    rw [verify, cryptographyPublicKey_ok_iff.mpr h1, ok_bind]
    simp only [h2, catching, isInvalidSignature, if_true]

theorem checkSignCount_fails {env : Env} {raw : Bytes} {ad : AuthData} {stored : Option Int}
    {ignore : Bool} (had : AuthDataOf env raw ad) (h : ¬ CounterOk stored raw ignore) :
    checkSignCount stored ad.signCount ignore = .error (.lib .signatureCount) := by
  cases hc : checkSignCount stored ad.signCount ignore with
  | ok u => exact absurd ((checkSignCount_ok_iff had).mp hc) h
  | error x =>
    unfold checkSignCount at hc
    split at hc
    · cases hc
    · rw [require_error_iff] at hc; rw [hc.2]

theorem assertionChecks_fails {env : Env} {a : AssertionArgs} {allowed : List Origin}
    {cd : CredentialData} {cdj raw sig : Bytes} {handle : Option Bytes} {x : LibErr}
    (ha : extractAllowedOrigins env a.expectedOrigin = .ok allowed)
    (hr : a.credential.response = .assertion cdj raw sig handle)
    (h : AssertionFails env a cd cdj raw sig handle x) :
    assertionChecks env a allowed cd = .error (.lib x) := by
  unfold assertionChecks
  rw [hr]
  simp only [Response.clientDataJSON, Response.authenticatorData, Response.signature, ok_bind]
  cases h with
  | user _ h => rw [resolveUser_fails h, error_bind]
  | rp u _ h1 h2 => rw [resolveUser_ok_iff.mpr h1, ok_bind, resolveRp_fails h2, error_bind]
  | client u rp _ h1 h2 h3 =>
    rw [resolveUser_ok_iff.mpr h1, ok_bind, resolveRp_ok_iff.mpr h2, ok_bind,
      checkClientData_fails ha h3, error_bind]
  | auth u rp ad _ h1 h2 h3 h4 =>
    have had : AuthDataOf env raw ad := by cases h4 <;> assumption
    rw [resolveUser_ok_iff.mpr h1, ok_bind, resolveRp_ok_iff.mpr h2, ok_bind,
      (checkClientData_ok_iff (u := ()) ha).mpr h3, ok_bind,
      parseAuthenticatorData_ok_iff.mpr had, ok_bind, checkAuthData_fails h4, error_bind]
  | verification u rp ad h1 h2 h3 h4 h5 =>
    rw [resolveUser_ok_iff.mpr h1, ok_bind, resolveRp_ok_iff.mpr h2, ok_bind,
      (checkClientData_ok_iff (u := ()) ha).mpr h3, ok_bind,
      parseAuthenticatorData_ok_iff.mpr h4.1, ok_bind, (checkAuthData_ok_iff (u := ()) h4.1).mpr h4,
      ok_bind, verify_fails h5, error_bind]
  | signatureCount u rp ad h1 h2 h3 h4 h5 h6 =>
    rw [resolveUser_ok_iff.mpr h1, ok_bind, resolveRp_ok_iff.mpr h2, ok_bind,
      (checkClientData_ok_iff (u := ()) ha).mpr h3, ok_bind,
      parseAuthenticatorData_ok_iff.mpr h4.1, ok_bind, (checkAuthData_ok_iff (u := ()) h4.1).mpr h4,
      ok_bind, (verify_ok_iff (u := ())).mpr h5, ok_bind, checkSignCount_fails h4.1 h6, error_bind]

theorem attestationChecks_fails {env : Env} {a : AttestationArgs} {cdj ob : Bytes} {x : LibErr}
    (he : ExpectedOk env a.expectedOrigin) (hr : a.credential.response = .attestation cdj ob)
    (h : AttestationFails env a cdj ob x) :
    attestationChecks env a = .error (.lib x) := by
  obtain ⟨allowed, ha⟩ := expectedOk_iff.mp he
  unfold attestationChecks
  rw [hr, ha, ok_bind]
  simp only [Response.clientDataJSON, Response.attestationObject, ok_bind]
  cases h with
  | client _ h => rw [checkClientData_fails ha h, error_bind]
  | auth o raw _ h1 h2 h3 =>
    rw [(checkClientData_ok_iff (u := ()) ha).mpr h1, ok_bind, parseAttestationObject_ok_iff.mpr h2,
      ok_bind]
    simp only [checkAuthData_fails h3, error_bind]
  | unimplemented o raw h1 h2 h3 h4 =>
    obtain ⟨cdj', ob', e, h5, h6, h7, h8⟩ := h1
    rw [hr] at e
    cases e
    obtain ⟨acd, h8⟩ := Option.ne_none_iff_exists'.mp h8
    rw [(checkClientData_ok_iff (u := ()) ha).mpr h5, ok_bind, parseAttestationObject_ok_iff.mpr h6,
      ok_bind]
    simp only [(checkAuthData_ok_iff (u := ()) h7.1).mpr h7, ok_bind, attestedOf_ok_iff.mpr h8]
    have : ∀ k r hh, attest env o.attStmt (.key k) r hh = .error (.lib .unimplemented) := by
      intro k r hh
      cases hs : o.attStmt with
      | none => exact absurd hs h2
      | fidoU2F s c => exact absurd hs (h3 s c)
      | androidKey g s c => exact absurd hs (h4 g s c)
      | _ => rfl
    rw [this, error_bind]

/-! ## Nothing between acceptance and the documented errors -/

theorem client_dichotomy {env : Env} {cdj : Bytes} (type : String) (ch : Bytes)
    (e : ExpectedOrigin) (tb : Option TokenBinding) {cd : ClientData} {o : Origin}
    (h1 : ClientDataOf env cdj cd) (h2 : OriginOf env cd.origin o) :
    ClientOk env cdj type ch e tb ∨ ∃ x, ClientFails env cdj type ch e tb x := by
  by_cases ht : cd.type = type
  swap
  · exact Or.inr ⟨_, .type cd h1 ht⟩
  by_cases hc : ∃ c, Base64UrlText cd.challenge c
  swap
  · exact Or.inr ⟨_, .decoding cd h1 ht fun c hh => hc ⟨c, hh⟩⟩
  obtain ⟨c, hc⟩ := hc
  by_cases hcc : c = ch
  swap
  · exact Or.inr ⟨_, .challenge cd c h1 ht hc hcc⟩
  subst hcc
  by_cases ho : OriginAllowed env e cd.origin
  swap
  · exact Or.inr ⟨_, .origin cd o h1 ht hc h2 ho⟩
  by_cases hb : TokenBindingOk tb cd.tokenBinding
  · exact Or.inl ⟨cd, h1, ht, hc, ho, hb⟩
  · exact Or.inr ⟨_, .tokenBinding cd h1 ht hc ho hb⟩

theorem auth_dichotomy {env : Env} {raw : Bytes} {ad : AuthData} (rpId : String) (uv : Bool)
    (expected : Option (List ExtId)) (h : AuthDataOf env raw ad) :
    AuthOk env raw ad rpId uv expected ∨ ∃ x, AuthFails env raw ad rpId uv expected x := by
  by_cases h1 : RpHashOk env raw rpId
  swap
  · exact Or.inr ⟨_, .rpIdHash h h1⟩
  by_cases h2 : FlagSet raw 0
  swap
  · exact Or.inr ⟨_, .userPresence h h1 h2⟩
  by_cases h3 : uv = true → FlagSet raw 2
  swap
  · simp only [Classical.not_imp] at h3
    exact Or.inr ⟨_, .userVerification h h1 h2 h3.1 h3.2⟩
  by_cases h4 : ExtensionsOk expected ad.extensions
  · exact Or.inl ⟨h, h1, h2, h3, h4⟩
  · exact Or.inr ⟨_, .extension h h1 h2 h3 h4⟩

theorem user_dichotomy (reg : UserEntity) (user : Option UserEntity) (handle : Option Bytes) :
    (∃ u, UserOk reg user handle u) ∨ ∃ x, UserFails reg user handle x := by
  cases user with
  | none =>
    cases handle with
    | none => exact Or.inr ⟨_, .noHandle⟩
    | some h =>
      by_cases he : h = reg.id
      · subst he; exact Or.inl ⟨_, .fromHandle⟩
      · exact Or.inr ⟨_, .otherHandle _ h (by simp) he⟩
  | some u =>
    by_cases hu : u.id = reg.id
    swap
    · exact Or.inr ⟨_, .otherUser u _ hu⟩
    cases handle with
    | none => exact Or.inl ⟨_, .given u _ hu (by simp)⟩
    | some h =>
      by_cases he : h = reg.id
      · exact Or.inl ⟨_, .given u _ hu (by simpa using he)⟩
      · exact Or.inr ⟨_, .otherHandle _ h (by simpa using hu) he⟩

theorem rp_dichotomy (reg arg : Option RpEntity) :
    (∃ r, RpOk reg arg r) ∨ ∃ x, RpFails reg arg x := by
  cases reg with
  | none =>
    cases arg with
    | none => exact Or.inr ⟨_, .notFound⟩
    | some r => exact Or.inl ⟨_, .arg r⟩
  | some r =>
    cases arg with
    | none => exact Or.inl ⟨_, .registered r⟩
    | some r' =>
      by_cases h : r.id = r'.id
      · exact Or.inl ⟨_, .both r r' h⟩
      · exact Or.inr ⟨_, .other r r' h⟩

theorem assertion_dichotomy {env : Env} (a : AssertionArgs) (cd : CredentialData)
    {cdj raw sig : Bytes} {handle : Option Bytes} {c : ClientData} {o : Origin} {ad : AuthData}
    (hr : a.credential.response = .assertion cdj raw sig handle)
    (h1 : ClientDataOf env cdj c) (h2 : OriginOf env c.origin o) (h3 : AuthDataOf env raw ad)
    (h4 : SignedBy env cd.publicKey sig (raw ++ env.sha256 cdj) ∨
      BadSignature env cd.publicKey sig (raw ++ env.sha256 cdj)) :
    (∃ user rp ad, AssertionOk env a cd user rp ad) ∨
      ∃ x, AssertionFails env a cd cdj raw sig handle x := by
  rcases user_dichotomy cd.user a.user handle with ⟨u, hu⟩ | ⟨x, hx⟩
  swap
  · exact Or.inr ⟨x, .user x hx⟩
  rcases rp_dichotomy cd.rp a.rp with ⟨rp, hrp⟩ | ⟨x, hx⟩
  swap
  · exact Or.inr ⟨x, .rp u x hu hx⟩
  rcases client_dichotomy "webauthn.get" a.expectedChallenge a.expectedOrigin a.tokenBinding h1 h2
    with hc | ⟨x, hx⟩
  swap
  · exact Or.inr ⟨x, .client u rp x hu hrp hx⟩
  rcases auth_dichotomy rp.id a.requireUserVerification a.expectedExtensions h3 with had | ⟨x, hx⟩
  swap
  · exact Or.inr ⟨x, .auth u rp ad x hu hrp hc hx⟩
  rcases h4 with h4 | h4
  swap
  · exact Or.inr ⟨_, .verification u rp ad hu hrp hc had h4⟩
  by_cases hcnt : CounterOk cd.signatureCount raw a.ignoreCloneError
  · exact Or.inl ⟨u, rp, ad, cdj, raw, sig, handle, hr, hu, hrp, hc, had, h4, hcnt⟩
  · exact Or.inr ⟨_, .signatureCount u rp ad hu hrp hc had h4 hcnt⟩

end WebAuthn
