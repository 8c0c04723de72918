import Verif.Props.AndroidStrict
import Verif.Props.RepairedOrigin
import Verif.Props.ExtensionsCeremony
import Verif.Props.KeyUse
import Verif.Props.Separation
import Verif.Props.Strictness
import Verif.Props.ClientText
import Verif.Spec.Whole

/-!
# The repairs of the package go together (C89)
-/

namespace WebAuthn.Props

open WebAuthn WebAuthn.Spec WebAuthn.Whole

variable {env : Env} {p : Policy}

/-! ## Origins -/

theorem repairedOrigin_ok_iff {s : String} {o : Origin} : Repaired.parseOrigin env s = .ok o ↔
    ∃ o', OriginOf env s o' ∧ o'.scheme = o.scheme ∧ o'.port = o.port ∧
      HostOf o'.hostname.toList o.hostname.toList := by
  rw [C37_repaired_accepted_origins]
  constructor
  · rintro ⟨netloc, h, h'⟩
    exact ⟨_, h, rfl, rfl, h'⟩
  · rintro ⟨⟨scheme, netloc, port⟩, h, rfl, rfl, h'⟩
    exact ⟨netloc, h, h'⟩

theorem repairedOrigin_of {s : String} {o : Origin} (h : OriginOf env s o) :
    ∃ o', Repaired.parseOrigin env s = .ok o' :=
  ⟨_, by unfold Repaired.parseOrigin; rw [parseOrigin_ok_iff.mpr h]; rfl⟩

theorem sameOrigin_iff {s s' : String} : SameOrigin env s s' ↔
    ∃ o, Repaired.parseOrigin env s = .ok o ∧ Repaired.parseOrigin env s' = .ok o := by
  simp only [repairedOrigin_ok_iff]
  constructor
  · rintro ⟨o, o', host, h1, h2, h3, h4, h5, h6⟩
    exact ⟨⟨o.scheme, String.ofList host, o.port⟩, ⟨o, h1, rfl, rfl, by simpa using h5⟩, o', h2, h3.symm,
      h4.symm, by simpa using h6⟩
  · rintro ⟨o, ⟨o1, h1, e1, e2, h2⟩, o2, h3, e3, e4, h4⟩
    exact ⟨o1, o2, _, h1, h3, e1.trans e3.symm, e2.trans e4.symm, h2, h4⟩

theorem whole_allowed_ok_iff {e : ExpectedOrigin} {l : List Origin} :
    Whole.extractAllowedOrigins env e = .ok l ↔ originList e ≠ [] ∧
      List.Forall₂ (fun s o => Repaired.parseOrigin env s = .ok o) (originList e) l := by
  cases e with
  | one s =>
    simp only [Whole.extractAllowedOrigins, bind_ok_iff, pure_eq_ok, Except.ok.injEq, originList]
    constructor
    · rintro ⟨o, ho, rfl⟩
      exact ⟨by simp, .cons ho .nil⟩
    · rintro ⟨-, h⟩
      cases h with
      | cons ho h => cases h; exact ⟨_, ho, rfl⟩
  | many xs =>
    simp only [Whole.extractAllowedOrigins, bind_ok_iff, require_ok_iff, mapM_ok_iff, originList]
    constructor
    · rintro ⟨u, h1, h2⟩
      refine ⟨?_, h2⟩
      rintro rfl
      simp at h1
    · rintro ⟨h1, h2⟩
      refine ⟨(), ?_, h2⟩
      cases xs with
      | nil => exact absurd rfl h1
      | cons x xs => simp

theorem whole_expected_iff {e : ExpectedOrigin} :
    ExpectedOk env e ↔ ∃ l, Whole.extractAllowedOrigins env e = .ok l := by
  have key : ∀ s, (∃ o, OriginOf env s o) ↔ ∃ o, Repaired.parseOrigin env s = .ok o := fun s =>
    ⟨fun ⟨_, h⟩ => repairedOrigin_of h, fun ⟨_, h⟩ => by
      obtain ⟨o', h, -⟩ := repairedOrigin_ok_iff.mp h
      exact ⟨o', h⟩⟩
  simp only [whole_allowed_ok_iff, ExpectedOk, key, ← forall₂_exists]
  constructor
  · rintro ⟨h1, l, h2⟩; exact ⟨l, h1, h2⟩
  · rintro ⟨l, h1, h2⟩; exact ⟨h1, l, h2⟩

theorem whole_mem_iff {e : ExpectedOrigin} {l : List Origin} {o : Origin}
    (h : Whole.extractAllowedOrigins env e = .ok l) :
    o ∈ l ↔ ∃ s ∈ originList e, Repaired.parseOrigin env s = .ok o := by
  rw [whole_allowed_ok_iff] at h
  replace h := h.2
  generalize originList e = xs at h
  induction h with
  | nil => simp
  | cons h1 h2 ih =>
    simp only [List.mem_cons, ih, exists_eq_or_imp]
    refine or_congr ?_ Iff.rfl
    rw [h1]
    simp [eq_comm]

theorem whole_client_ok_iff {cdj : Bytes} {type : String} {ch : Bytes} {e : ExpectedOrigin}
    {allowed : List Origin} {tb : Option TokenBinding} {u : Unit}
    (ha : Whole.extractAllowedOrigins env e = .ok allowed) :
    Whole.checkClientData env cdj type ch allowed tb = .ok u ↔ ClientAccepted env cdj type ch e tb := by
  simp only [Whole.checkClientData, bind_ok_iff, C92_repaired_exact _ _, require_ok_iff, beq_iff_eq,
    checkChallenge_ok_iff, checkTokenBinding_ok_iff, List.contains_iff_mem,
    whole_mem_iff ha, ClientAccepted, sameOrigin_iff]
  constructor
  · rintro ⟨cd, h1, _, h2, _, h3, o, h4, _, ⟨s, hs, h5⟩, h6⟩
    exact ⟨cd, h1, h2, h3, ⟨s, hs, o, h4, h5⟩, h6⟩
  · rintro ⟨cd, h1, h2, h3, ⟨s, hs, o, h4, h5⟩, h6⟩
    exact ⟨cd, h1, (), h2, (), h3, o, h4, (), ⟨s, hs, h5⟩, h6⟩

/-! ## Outputs and keys -/

theorem documented_iff {e : Extensions} : Whole.documented e = true ↔ Documented e := by
  simp only [Whole.documented, Bool.and_eq_true, bne_iff_ne, Option.all_eq_true, position_iff,
    List.all_eq_true, beq_iff_eq]
  constructor
  · rintro ⟨⟨⟨h1, h2⟩, h3⟩, h4⟩
    exact ⟨h1, h3, h4, h2⟩
  · rintro ⟨h1, h3, h4, h2⟩
    exact ⟨⟨⟨h1, h2⟩, h3⟩, h4⟩

theorem checkOutputs_ok_iff {ad : AuthData} {u : Unit} :
    Whole.checkOutputs ad = .ok u ↔ OutputsOk ad := by
  simp only [Whole.checkOutputs, require_ok_iff, Option.all_eq_true, documented_iff, OutputsOk]

theorem checkKey_ok_iff {ad : AuthData} {acd : AttestedCredentialData} {u : Unit}
    (h : ad.attested = some acd) (hc : ∀ k, acd.credentialPublicKey = some k → KeyConsistent k) :
    Whole.checkKey p acd.credentialPublicKey = .ok u ↔ AskedFor p.algs ad := by
  unfold AskedFor
  cases hk : acd.credentialPublicKey with
  | none =>
    simp only [Whole.checkKey, raise, reduceCtorEq, false_iff, not_exists, not_and]
    rintro acd' k h' hk'
    rw [h] at h'
    cases h'
    rw [hk] at hk'
    cases hk'
  | some k =>
    simp only [Whole.checkKey, require_ok_iff, Bool.and_eq_true, algIn_iff, webAuthnKey_iff (hc k hk)]
    constructor
    · rintro ⟨h1, h2⟩
      exact ⟨acd, k, h, hk, h1, h2⟩
    · rintro ⟨acd', k', h', hk', h1, h2⟩
      rw [h] at h'
      cases h'
      rw [hk] at hk'
      cases hk'
      exact ⟨h1, h2⟩

theorem whole_object_ok_iff {ob raw : Bytes} {o : AttestationObject} :
    Repaired.parseAttestationObject env ob = .ok (o, raw) ↔
      AttObjOf env ob o raw ∧ ∃ v, env.cborLoad ob = .ok (v, []) := by
  unfold Repaired.parseAttestationObject
  simp only [bind_ok_iff, catching_ok_iff, repaired_cborLoads_ok_iff, parseAttestationObject_ok_iff]
  constructor
  · rintro ⟨v, h1, h2⟩
    exact ⟨h2, v, h1⟩
  · rintro ⟨h2, v, h1⟩
    exact ⟨v, h1, h2⟩

theorem whole_attest_ok_iff {o : AttestationObject} {raw hash : Bytes} {t : AttestationType}
    {path : TrustedPath} : Whole.attest env o.attStmt (.attObj o) raw hash = .ok (t, path) ↔
      StrictlyShows env o.authData raw hash o.attStmt t path ∧
      ∀ sig x5c, o.attStmt = .fidoU2F sig x5c → ShortKey o.authData := by
  have other : (∀ alg sig x5c, o.attStmt ≠ .androidKey alg sig x5c) →
      (StatementShows env o.authData raw hash o.attStmt t path ↔
        StrictlyShows env o.authData raw hash o.attStmt t path) := by
    intro h
    generalize o.attStmt = st at h
    constructor
    · intro h'
      cases h' with
      | none => exact .none
      | fidoU2F sig x5c cert hu => exact .fidoU2F sig x5c cert hu
      | androidKey alg sig x5c => exact absurd rfl (h alg sig x5c)
    · intro h'
      cases h' with
      | none => exact .none
      | fidoU2F sig x5c cert hu => exact .fidoU2F sig x5c cert hu
      | androidKey alg sig x5c => exact absurd rfl (h alg sig x5c)
  cases h : o.attStmt with
  | androidKey alg sig x5c =>
    show Repaired.attestStrict env (.androidKey alg sig x5c) (.attObj o) raw hash = _ ↔ _
    rw [C91_repaired_exact]
    constructor
    · rintro ⟨certs, h1, h2⟩
      cases h2
      exact ⟨.androidKey alg sig x5c certs h1, nofun⟩
    · rintro ⟨h1, -⟩
      cases h1 with
      | androidKey _ _ _ certs h1 => exact ⟨certs, h1, rfl⟩
  | fidoU2F sig x5c =>
    rw [h] at other
    rw [← other nofun, ← h, ← attest_attObj_ok_iff, h]
    show Repaired.attest env (.fidoU2F sig x5c) (.attObj o) raw hash = _ ↔ _
    rw [C86_repaired_u2f]
    refine and_congr Iff.rfl ?_
    simp only [AttStmt.fidoU2F.injEq, ShortKey]
    constructor
    · intro h' _ _ _
      exact h'
    · intro h'
      exact h' _ _ ⟨rfl, rfl⟩
  | _ =>
    rw [h] at other
    rw [← other nofun, ← h, ← attest_attObj_ok_iff, h]
    exact ⟨fun h' => ⟨h', nofun⟩, fun h' => h'.1⟩

/-- What is valid to the letter, the repaired `attest` without the letter takes as well. -/
theorem whole_attest_takes {o : AttestationObject} {raw hash : Bytes} {r : AttestationType × TrustedPath}
    (h : Whole.attest env o.attStmt (.attObj o) raw hash = .ok r) :
    ∃ r', Repaired.attest env o.attStmt (.attObj o) raw hash = .ok r' := by
  revert h
  cases hs : o.attStmt with
  | androidKey alg sig x5c =>
    intro h
    obtain ⟨path, h1, -⟩ := C90_repaired_extends (s := .androidKey alg sig x5c) (ty := r.1) (path := r.2) h
    exact ⟨_, h1⟩
  | _ => exact fun h => ⟨r, h⟩

theorem forVerification_class_iff {k : CPK} : forVerification k = true ↔
    ∃ alg, ClassAlg k alg ∧ Permits (baseOf k) alg := by
  rw [forVerification_iff]
  cases k with
  | base b => exact ⟨fun h => h.2.elim, fun ⟨_, h, _⟩ => nomatch h⟩
  | ec2 b x y crv =>
    constructor
    · rintro ⟨⟨alg, h1, h2⟩, h3⟩
      have h3 : b.kty.id = .EC2 := h3
      refine ⟨alg, ?_, h1, h2⟩
      simp only [baseOf, h3] at h1
      cases h1
      · exact .ec2 _ _ _ _ _ _ .es256
      · exact .ec2 _ _ _ _ _ _ .es384
      · exact .ec2 _ _ _ _ _ _ .es512
    · rintro ⟨alg, h, h1, h2⟩
      refine ⟨⟨alg, h1, h2⟩, ?_⟩
      show b.kty.id = .EC2
      simp only [baseOf] at h1
      generalize b.kty.id = kty at h1
      cases h with
      | ec2 _ _ _ _ _ _ hh => cases h1 <;> first | rfl | cases hh
  | okp b crv x =>
    constructor
    · rintro ⟨⟨alg, h1, h2⟩, h3⟩
      have h3 : b.kty.id = .OKP := h3
      simp only [baseOf, h3] at h1
      cases h1
      refine ⟨_, .okp _ _ _, ?_, h2⟩
      simp only [baseOf, h3]
      exact .eddsa
    · rintro ⟨alg, h, h1, h2⟩
      refine ⟨⟨alg, h1, h2⟩, ?_⟩
      show b.kty.id = .OKP
      simp only [baseOf] at h1
      generalize b.kty.id = kty at h1
      cases h
      cases h1
      rfl

theorem expectedId_ok_iff {rp : RpEntity} {ad : AuthData} {id : String} :
    Whole.expectedId p rp ad = .ok id ↔ IdExpected p rp ad id := by
  have hu : (ad.extensions.any fun e => e.appid == some true) = true ↔ AppIdUsed ad := by
    simp only [Option.any_eq_true, beq_iff_eq, AppIdUsed]
  unfold Whole.expectedId
  by_cases h : AppIdUsed ad
  · rw [if_pos (hu.mpr h)]
    constructor
    · intro h'
      cases hp : p.appId with
      | none => rw [hp] at h'; cases h'
      | some x => rw [hp] at h'; cases h'; exact .appId _ h hp
    · rintro (h' | ⟨_, -, hp⟩)
      · exact absurd h h'
      · rw [hp]
  · rw [if_neg (fun h' => h (hu.mp h'))]
    constructor
    · rintro ⟨⟩
      exact .rp h
    · rintro (_ | ⟨_, h', -⟩)
      · rfl
      · exact absurd h' h

/-! ## The ceremonies -/

theorem whole_attestation_ok_iff {a : AttestationArgs} {r : AttestationRecord} :
    Whole.attestationChecks env p a = .ok r ↔
      GoodRegistration env p a r.att r.attType r.trustedPath ∧
      r.credential = a.credential ∧ r.user = a.user ∧ r.rp = a.rp := by
  unfold Whole.attestationChecks
  cases hr : a.credential.response with
  | assertion cdj raw sig handle =>
    simp only [bind_ok_iff, Response.attestationObject, reduceCtorEq, false_and, and_false,
      exists_const, false_iff]
    rintro ⟨h, -⟩
    obtain ⟨_, _, _, h', -⟩ := h.response
    rw [hr] at h'
    cases h'
  | attestation cdj ob =>
    simp only [bind_ok_iff, Response.clientDataJSON, Response.attestationObject, Except.ok.injEq,
      exists_eq_left', Prod.exists, whole_object_ok_iff, whole_attest_ok_iff, pure_eq_ok,
      attestedOf_ok_iff, checkOutputs_ok_iff, require_ok_iff, beq_iff_eq]
    constructor
    · rintro ⟨allowed, ha, _, h3, o, raw, ⟨h4, hv⟩, _, h9, _, h5, acd, h6, _, h8, _, h10, t, path,
        ⟨h7, h11⟩, rfl⟩
      have had : AuthDataOf env raw o.authData := by obtain ⟨_, _, _, _, _, h, _⟩ := h4; exact h
      exact ⟨⟨whole_expected_iff.mpr ⟨allowed, ha⟩, ⟨cdj, ob, raw, hr, (whole_client_ok_iff ha).mp h3, h4,
        hv, (checkAuthData_ok_iff had).mp h5, h7⟩, h9, ⟨acd, h6, h8⟩,
        (checkKey_ok_iff h6 fun k hk => attests_consistent
          (c := a.credential) ⟨cdj, ob, o, raw, acd, hr, h4, h6, hk⟩).mp h10, h11⟩, rfl, rfl, rfl⟩
    · rintro ⟨⟨h1, ⟨cdj', ob', raw, he, h3, h4, hv, h5, h7⟩, h9, ⟨acd, h6, h8⟩, h10, h11⟩, e1, e2, e3⟩
      rw [hr] at he
      cases he
      obtain ⟨allowed, ha⟩ := whole_expected_iff.mp h1
      refine ⟨allowed, ha, (), (whole_client_ok_iff ha).mpr h3, r.att, raw, ⟨h4, hv⟩, (), h9, (),
        (checkAuthData_ok_iff h5.1).mpr h5, acd, h6, (), h8, (),
        (checkKey_ok_iff h6 fun k hk => attests_consistent
          (c := a.credential) ⟨cdj, ob, r.att, raw, acd, hr, h4, h6, hk⟩).mpr h10, _, _, ⟨h7, h11⟩, ?_⟩
      cases r
      simp only at e1 e2 e3
      rw [e1, e2, e3]

/-- C89: the repaired package registers exactly what it should. -/
theorem C89_registration_exact {σ : Type} {reg : Registrar σ} {a : AttestationArgs} {s s' : σ} :
    Whole.handleAttestation env p reg a s = (.ok (), s') ↔
      ∃ o t path, GoodRegistration env p a o t path ∧
        reg.registerAttestation ⟨a.credential, o, t, a.user, a.rp, path⟩ s = (.ok none, s') := by
  have key : Whole.handleAttestation env p reg a s = (.ok (), s') ↔
      ∃ r, Whole.attestationChecks env p a = .ok r ∧
        reg.registerAttestation r s = (.ok none, s') := by
    unfold Whole.handleAttestation
    cases h : Whole.attestationChecks env p a with
    | error e =>
      simp only [Prod.mk.injEq, finalise_ok_iff, reduceCtorEq, false_and, exists_false]
    | ok r =>
      simp only [Except.ok.injEq, exists_eq_left', Prod.mk.injEq, finalise_ok_iff,
        checkWrite_ok_iff]
      rw [Prod.ext_iff]
  rw [key]
  simp only [whole_attestation_ok_iff]
  constructor
  · rintro ⟨r, ⟨h1, e1, e2, e3⟩, h6⟩
    refine ⟨r.att, _, _, h1, ?_⟩
    rw [← e1, ← e2, ← e3]
    exact h6
  · rintro ⟨o, t, path, h1, h6⟩
    exact ⟨_, ⟨h1, rfl, rfl, rfl⟩, h6⟩

theorem whole_pre_ok_iff {a : AssertionArgs} {l : List Origin} :
    Whole.assertionPre env a = .ok l ↔ Whole.extractAllowedOrigins env a.expectedOrigin = .ok l ∧
      AllowOk a.allowCredentials a.credential.rawId := by
  unfold Whole.assertionPre AllowOk
  cases a.allowCredentials with
  | none => simp [bind_ok_iff, pure_eq_ok]
  | some cs =>
    simp only [bind_ok_iff, require_ok_iff, pure_eq_ok, Except.ok.injEq, List.any_eq_true, beq_iff_eq,
      Option.some.injEq, forall_eq']
    constructor
    · rintro ⟨x, h1, _, h2, rfl⟩; exact ⟨h1, h2⟩
    · rintro ⟨h1, h2⟩; exact ⟨_, h1, (), h2, rfl⟩

theorem whole_assertion_ok_iff {a : AssertionArgs} {allowed : List Origin} {cd : CredentialData}
    {r : AssertionRecord} (ha : Whole.extractAllowedOrigins env a.expectedOrigin = .ok allowed)
    (hl : AllowOk a.allowCredentials a.credential.rawId) :
    Whole.assertionChecks env p a allowed cd = .ok r ↔
      r.credential = a.credential ∧ GoodLogin env p a cd r.user r.rp r.authData := by
  unfold Whole.assertionChecks
  cases hr : a.credential.response with
  | attestation cdj o =>
    simp only [bind_ok_iff]
    constructor
    · rintro ⟨user, h, _⟩
      exact absurd h resolveUser_attestation
    · rintro ⟨_, h⟩
      obtain ⟨_, _, _, _, _, h', -⟩ := h.response
      rw [hr] at h'
      cases h'
  | assertion cdj raw sig handle =>
    simp only [bind_ok_iff, resolveUser_ok_iff, resolveRp_ok_iff, whole_client_ok_iff ha,
      Response.clientDataJSON, Response.authenticatorData, Response.signature, Except.ok.injEq,
      exists_eq_left', parseAuthenticatorData_ok_iff, verify_ok_iff, pure_eq_ok, checkOutputs_ok_iff,
      expectedId_ok_iff, require_ok_iff, forVerification_class_iff]
    constructor
    · rintro ⟨user, h1, rp, h2, _, h3, ad, h4, _, h8, id, h9, _, h5, _, h10, _, h6, _, h7, rfl⟩
      exact ⟨rfl, whole_expected_iff.mpr ⟨allowed, ha⟩, hl, h2, ⟨cdj, raw, sig, handle, id, hr, h1, h3, h9,
        (checkAuthData_ok_iff h4).mp h5, h6, (checkSignCount_ok_iff h4).mp h7⟩, h8, h10⟩
    · rintro ⟨h0, -, -, h2, ⟨cdj', raw', sig', handle', id, he, h1, h3, h9, h5, h6, h7⟩, h8, h10⟩
      rw [hr] at he
      cases he
      have h4 := h5.1
      refine ⟨_, h1, _, h2, (), h3, _, h4, (), h8, id, h9, (), (checkAuthData_ok_iff h4).mpr h5, (), h10,
        (), h6, (), (checkSignCount_ok_iff h4).mpr h7, ?_⟩
      cases r
      simp only at h0
      rw [h0]

theorem whole_handle_ok_iff {σ : Type} {reg : Registrar σ} {a : AssertionArgs} {s s' : σ} :
    Whole.handleAssertion env p reg a s = (.ok (), s') ↔
      ∃ allowed cd s1 r, Whole.assertionPre env a = .ok allowed ∧
        reg.getCredentialData a.credential.rawId s = (.ok (some cd), s1) ∧
        Whole.assertionChecks env p a allowed cd = .ok r ∧
        reg.registerAssertion r s1 = (.ok none, s') := by
  unfold Whole.handleAssertion
  cases h1 : Whole.assertionPre env a with
  | error e => simp [finalise_ok_iff]
  | ok allowed =>
    cases h2 : reg.getCredentialData a.credential.rawId s with
    | mk r s1 =>
      simp only [Except.ok.injEq, Prod.mk.injEq, exists_and_left, exists_eq_left']
      cases h3 : checkRead r with
      | error e =>
        simp only [Prod.mk.injEq, finalise_ok_iff, reduceCtorEq, false_and, false_iff]
        rintro ⟨cd, _, ⟨rfl, -⟩, -⟩
        cases h3
      | ok cd =>
        rw [checkRead_ok_iff] at h3
        subst h3
        simp only [Except.ok.injEq, Option.some.injEq]
        cases h4 : Whole.assertionChecks env p a allowed cd with
        | error e =>
          simp only [Prod.mk.injEq, finalise_ok_iff, reduceCtorEq, false_and, false_iff]
          rintro ⟨cd', _, ⟨rfl, rfl⟩, r, h5, -⟩
          rw [h4] at h5
          cases h5
        | ok r =>
          simp only [Prod.mk.injEq, finalise_ok_iff, checkWrite_ok_iff]
          constructor
          · rintro ⟨h5, h6⟩
            exact ⟨cd, s1, ⟨rfl, rfl⟩, r, h4, Prod.ext h5 h6⟩
          · rintro ⟨cd', _, ⟨rfl, rfl⟩, r', h5, h6⟩
            rw [h4] at h5
            cases h5
            exact ⟨congrArg Prod.fst h6, congrArg Prod.snd h6⟩

/-- C89: the repaired package logs in exactly whom it should. -/
theorem C89_login_exact {σ : Type} {reg : Registrar σ} {a : AssertionArgs} {s s' : σ} :
    Whole.handleAssertion env p reg a s = (.ok (), s') ↔
      ∃ cd s1 user rp ad, reg.getCredentialData a.credential.rawId s = (.ok (some cd), s1) ∧
        GoodLogin env p a cd user rp ad ∧
        reg.registerAssertion ⟨a.credential, ad, user, rp⟩ s1 = (.ok none, s') := by
  rw [whole_handle_ok_iff]
  simp only [whole_pre_ok_iff]
  constructor
  · rintro ⟨al, cd, s1, r, ⟨h1, h2⟩, h3, h4, h5⟩
    obtain ⟨h6, h7⟩ := (whole_assertion_ok_iff h1 h2).mp h4
    refine ⟨cd, s1, r.user, r.rp, r.authData, h3, h7, ?_⟩
    rw [← h6]
    exact h5
  · rintro ⟨cd, s1, user, rp, ad, h3, h4, h5⟩
    obtain ⟨al, h1⟩ := whole_expected_iff.mp h4.expected
    exact ⟨al, cd, s1, _, ⟨h1, h4.allowed⟩, h3, (whole_assertion_ok_iff h1 h4.allowed).mpr ⟨rfl, h4⟩, h5⟩

/-! ## Against the code -/

theorem clientAccepted_of (law : JsonRefusesMark env) {cdj : Bytes} {type : String} {ch : Bytes} {e : ExpectedOrigin}
    {tb : Option TokenBinding} (h : ClientOk env cdj type ch e tb) : ClientAccepted env cdj type ch e tb := by
  obtain ⟨cd, h1, h2, h3, ⟨o, h4, s, hs, h5⟩, h6⟩ := h
  exact ⟨cd, ⟨cdj, .plain _ (unmarked_of law h1), h1⟩, h2, h3, ⟨s, hs, o, o, _, h4, h5, rfl, rfl, hostOf_iff.mpr rfl, hostOf_iff.mpr rfl⟩, h6⟩

/-- C89: the repaired package registers what the code registers, with the same effect, if it is
what it should be: about the credential with the raw id, with a key that was asked for, with
outputs as documented, and without trailing bytes. -/
theorem C89_registration_kept (law : JsonRefusesMark env) {σ : Type} {reg : Registrar σ}
    {a : AttestationArgs} {s s' : σ}
    {cdj ob raw : Bytes} {o : AttestationObject}
    (h : handleAttestation env reg a s = (.ok (), s')) (hr : a.credential.response = .attestation cdj ob)
    (ho : AttObjOf env ob o raw) (hv : ∃ v, env.cborLoad ob = .ok (v, [])) (hout : OutputsOk o.authData)
    (hid : RawIdAttests a.credential o.authData) (hk : AskedFor p.algs o.authData) :
    Whole.handleAttestation env p reg a s = (.ok (), s') := by
  obtain ⟨h1, o', raw', ⟨cdj', ob', h2, h3, h4, h5, -⟩, h6, h7⟩ := attestation_accepts.mp h
  rw [hr] at h2
  cases h2
  have he := (parseAttestationObject_ok_iff.mpr ho).symm.trans (parseAttestationObject_ok_iff.mpr h4)
  obtain ⟨rfl, rfl⟩ : o = o' ∧ raw = raw' := by simpa using he
  refine C89_registration_exact.mpr ⟨o, _, _, ⟨h1, ⟨cdj, ob, raw, hr, clientAccepted_of law h3, h4, hv, h5, ?_⟩,
    hout, hid, hk, fun sig x5c hs => ?_⟩, h7⟩
  · rw [h6]
    exact .none
  · rw [h6] at hs
    cases hs

/-- C89: the repaired package registers nothing else than the code, up to statements of other
formats and other spellings of the origin. -/
theorem C89_registration_only (law : JsonRefusesMark env) {σ : Type} {reg : Registrar σ}
    {a : AttestationArgs} {s s' : σ}
    {cdj ob raw : Bytes} {o : AttestationObject} {cd : ClientData}
    (h : Whole.handleAttestation env p reg a s = (.ok (), s'))
    (hr : a.credential.response = .attestation cdj ob) (ho : AttObjOf env ob o raw)
    (hstmt : o.attStmt = .none) (hcd : ClientDataOf env cdj cd)
    (horigin : OriginAllowed env a.expectedOrigin cd.origin) :
    handleAttestation env reg a s = (.ok (), s') := by
  obtain ⟨o', t, path, ⟨h1, ⟨cdj', ob', raw', h2, h3, h4, hv, h5, h6⟩, -, ⟨acd, h8, -⟩, -⟩, h7⟩ :=
    C89_registration_exact.mp h
  rw [hr] at h2
  cases h2
  have he := (parseAttestationObject_ok_iff.mpr ho).symm.trans (parseAttestationObject_ok_iff.mpr h4)
  obtain ⟨rfl, rfl⟩ : o = o' ∧ raw = raw' := by simpa using he
  obtain ⟨cd', g1, g2, g3, -, g5⟩ := h3
  obtain rfl := standardClientData_unique ⟨cdj, .plain _ (unmarked_of law hcd), hcd⟩ g1
  rw [hstmt] at h6
  cases h6
  exact attestation_accepts.mpr ⟨h1, o, raw, ⟨cdj, ob, hr, ⟨cd, hcd, g2, g3, horigin, g5⟩, h4, h5, by simp [h8]⟩,
    hstmt, h7⟩

/-- C89: the repaired package logs in whom the code logs in, with the same effect, if the outputs
are as documented and do not say that the AppID was used, and the key may be used so. -/
theorem C89_login_kept (law : JsonRefusesMark env) {σ : Type} {reg : Registrar σ}
    {a : AssertionArgs} {s s' s1 : σ}
    {cdj raw sig : Bytes} {handle : Option Bytes} {ad : AuthData} {cd : CredentialData} {alg : Alg}
    (h : handleAssertion env reg a s = (.ok (), s'))
    (hr : a.credential.response = .assertion cdj raw sig handle) (had : AuthDataOf env raw ad)
    (hout : OutputsOk ad) (happ : ¬ AppIdUsed ad)
    (hcd : reg.getCredentialData a.credential.rawId s = (.ok (some cd), s1))
    (hclass : ClassAlg cd.publicKey alg) (hperm : Permits (baseOf cd.publicKey) alg) :
    Whole.handleAssertion env p reg a s = (.ok (), s') := by
  obtain ⟨h1, h2, cd', s1', user, rp, ad', h3, ⟨cdj', raw', sig', handle', h4, h5, h6, h7, h8, h9, h10⟩,
    h11⟩ := assertion_accepts.mp h
  rw [hcd] at h3
  cases h3
  rw [hr] at h4
  cases h4
  obtain rfl := authDataOf_unique had h8.1
  exact C89_login_exact.mpr ⟨cd, s1, user, rp, ad, hcd, ⟨h1, h2, h6, ⟨cdj, raw, sig, handle, _, hr, h5,
    clientAccepted_of law h7, .rp happ, h8, h9, h10⟩, hout, alg, hclass, hperm⟩, h11⟩

/-- C89: the repaired package logs in nobody else than the code, up to logins for the AppID and
other spellings of the origin. -/
theorem C89_login_only (law : JsonRefusesMark env) {σ : Type} {reg : Registrar σ}
    {a : AssertionArgs} {s s' : σ}
    {cdj raw sig : Bytes} {handle : Option Bytes} {ad : AuthData} {cd : ClientData}
    (h : Whole.handleAssertion env p reg a s = (.ok (), s'))
    (hr : a.credential.response = .assertion cdj raw sig handle) (had : AuthDataOf env raw ad)
    (happ : ¬ AppIdUsed ad) (hcd : ClientDataOf env cdj cd)
    (horigin : OriginAllowed env a.expectedOrigin cd.origin) :
    handleAssertion env reg a s = (.ok (), s') := by
  obtain ⟨data, s1, user, rp, ad', h3, ⟨h1, h2, h6, ⟨cdj', raw', sig', handle', id, h4, h5, h7, h8, h9, h10,
    h11⟩, -, -⟩, h12⟩ := C89_login_exact.mp h
  rw [hr] at h4
  cases h4
  obtain rfl := authDataOf_unique had h9.1
  obtain ⟨cd', g1, g2, g3, -, g5⟩ := h7
  obtain rfl := standardClientData_unique ⟨cdj, .plain _ (unmarked_of law hcd), hcd⟩ g1
  cases h8 with
  | appId _ hu => exact absurd hu happ
  | rp =>
    exact assertion_accepts.mpr ⟨h1, h2, data, s1, user, rp, ad, h3, ⟨cdj, raw, sig, handle, hr, h5, h6,
      ⟨cd, hcd, g2, g3, horigin, g5⟩, h9, h10, h11⟩, h12⟩

/-! ## The repairs do not get in each other's way -/

/-- C89: a key that was registered may be used to log in: the check of the registration entails
the one of the login. -/
theorem C89_registered_usable {σ : Type} {reg : Registrar σ} {a : AttestationArgs} {s s' : σ}
    {k : CPK} (h : Whole.handleAttestation env p reg a s = (.ok (), s')) (hk : Attests env a.credential k) :
    Profile k ∧ ∃ alg ∈ p.algs, KeyAlg k alg ∧ ClassAlg k alg ∧ Permits (baseOf k) alg := by
  obtain ⟨o, t, path, ⟨-, ⟨cdj, ob, raw, h1, -, h2, -⟩, -, -, ⟨acd, k', h3, h4, ⟨alg, h5, h6⟩, h7⟩, -⟩, -⟩ :=
    C89_registration_exact.mp h
  obtain rfl := attests_unique hk ⟨cdj, ob, o, raw, acd, h1, h2, h3, h4⟩
  refine ⟨h7, alg, h5, h6, ?_⟩
  have hc := attests_consistent hk
  obtain ⟨m, hm, rfl⟩ := h6
  have hops : ∀ ops, (baseOf k).keyOps = some ops → ∃ o ∈ ops, o.id = .VERIFY := by
    intro ops ho
    rw [h7.2.1] at ho
    cases ho
  have halg : ∀ m', (baseOf k).alg = some m' → m'.id = m.id := by
    intro m' hm'
    rw [hm] at hm'
    cases hm'
    rfl
  cases k with
  | base b => exact hc.elim
  | ec2 b x y crv =>
    obtain ⟨hkty, -, m', hm', ha⟩ := hc
    have hm : b.alg = some m := hm
    rw [hm] at hm'
    cases hm'
    rcases ha with ha | ha | ha <;> rw [ha] at halg ⊢
    · exact ⟨.ec2 _ _ _ _ _ _ .es256, by simp only [baseOf, hkty]; exact .es256, halg, hops⟩
    · exact ⟨.ec2 _ _ _ _ _ _ .es384, by simp only [baseOf, hkty]; exact .es384, halg, hops⟩
    · exact ⟨.ec2 _ _ _ _ _ _ .es512, by simp only [baseOf, hkty]; exact .es512, halg, hops⟩
  | okp b crv x =>
    obtain ⟨hkty, -, m', hm', ha⟩ := hc
    have hm : b.alg = some m := hm
    rw [hm] at hm'
    cases hm'
    rw [ha] at halg ⊢
    exact ⟨.okp _ _ _, by simp only [baseOf, hkty]; exact .eddsa, halg, hops⟩

/-- C89: a key that was attested is read back as it was stored. -/
theorem C89_attested_stored (codec : CodecLaws env) {c : Credential} {k : CPK} {b : Bytes}
    (hk : Attests env c k) (hb : Repaired.coseKey env k = .ok b) :
    Repaired.parseCoseKeyBytes env b = .ok k := by
  obtain ⟨cdj, ob, o, raw, acd, -, ⟨_, _, _, -, -, ⟨flags, count, body, mid, -, -, -, -, -, hblock, -⟩, -⟩,
    ha, hk⟩ := hk
  rw [ha] at hblock
  obtain ⟨-, len, tail, d, k', -, -, -, -, -, -, hk', hd, -⟩ := hblock
  rw [hk] at hk'
  cases hk'
  obtain ⟨d', h1, h2, h3⟩ := repaired_coseKeyDict_ok ⟨d, hd⟩
  unfold Repaired.coseKey at hb
  rw [h1] at hb
  have := codec.roundTrip h3 hb []
  rw [List.append_nil] at this
  unfold Repaired.parseCoseKeyBytes
  rw [show catching (Repaired.cborLoads env b) Exc.isCborDecodeError .decoding = .ok (.dict d') from
    catching_ok_iff.mpr (repaired_cborLoads_ok_iff.mpr this)]
  exact parseCoseKeyDict_ok_iff.mpr h2

/-- The behaviours of the dependencies with a `json.loads` that passes over a byte order mark: the
code on these reads client data as the repaired package does. -/
def markless (env : Env) : Env :=
  { env with jsonLoads := fun text => match text.toList with
    | '\uFEFF' :: rest => env.jsonLoads (String.ofList rest)
    | _ => env.jsonLoads text }

theorem markless_of {cdj : Bytes} {cd : ClientData} (h : StandardClientData env cdj cd) :
    ClientDataOf (markless env) cdj cd := by
  obtain ⟨b, hu, d, ⟨text, h1, h2⟩, h3⟩ := h
  rw [← String.ofList_toList (s := text)] at h1
  cases hu with
  | marked =>
    refine ⟨d, ⟨_, utf8_mark h1, ?_⟩, h3⟩
    simpa [markless] using h2
  | plain _ hn =>
    refine ⟨d, ⟨_, h1, ?_⟩, h3⟩
    simp only [markless, String.ofList_toList]
    split
    · next rest ht =>
      rw [ht] at h1
      obtain ⟨b', hb⟩ : ∃ b', Utf8 b' (String.ofList rest) := ⟨_, rfl⟩
      refine absurd ⟨b', ?_⟩ hn
      rw [utf8_list.mp h1, ← utf8_list.mp (utf8_mark hb)]
    · exact h2

theorem markless_signed {k : CPK} {sig data : Bytes} (h : SignedBy env k sig data) :
    SignedBy (markless env) k sig data := by
  have key : ∀ {k pk}, KeyOf env k pk → KeyOf (markless env) k pk := by
    intro k pk h
    cases h <;> constructor <;> assumption
  cases h with
  | ecdsa b x y crv pk alg h _ _ h1 h2 h3 h4 => exact .ecdsa b x y crv pk alg h _ _ (key h1) h2 h3 h4
  | eddsa b crv x pk _ _ h1 h2 => exact .eddsa b crv x pk _ _ (key h1) h2

/-- C89: what was signed for one thing is accepted for no other. -/
theorem C89_separate (digest : ∀ b, (env.sha256 b).length = 32) {rpId : String} {u u' : Signed}
    (h : AcceptedWhole env p rpId u) (h' : AcceptedWhole env p rpId u')
    (he : u.message env = u'.message env) :
    u = u' ∨ (u.cdj ≠ u'.cdj ∧ env.sha256 u.cdj = env.sha256 u'.cdj) ∨
    ∃ b, Utf8 b rpId ∧ env.sha256 b = List.replicate 32 0 := by
  have own : ∀ {cdj type ch e tb}, ClientAccepted env cdj type ch e tb →
      ∃ origin, ExpectedOk (markless env) (.one origin) ∧
        ClientOk (markless env) cdj type ch (.one origin) tb := by
    rintro cdj type ch e tb ⟨cd, h1, h2, h3, ⟨s, -, o, -, -, h4, -⟩, h5⟩
    refine ⟨cd.origin, ⟨by simp [originList], ?_⟩, cd, markless_of h1, h2, h3, ⟨o, h4, _, by simp [originList], h4⟩, h5⟩
    intro s hs
    rw [originList, List.mem_singleton] at hs
    exact ⟨o, hs ▸ h4⟩
  have registration : ∀ {σ : Type} {reg : Registrar σ} {a : AttestationArgs} {s s' : σ} {cdj ob raw : Bytes}
      {o : AttestationObject}, Whole.handleAttestation env p reg a s = (.ok (), s') →
      a.credential.response = .attestation cdj ob → AttObjOf env ob o raw →
      ∃ origin r, AttestationOk (markless env) { a with expectedOrigin := .one origin } o raw ∧
        Repaired.attest (markless env) o.attStmt (.attObj o) raw (env.sha256 cdj) = .ok r := by
    intro σ reg a s s' cdj ob raw o h hr ho
    obtain ⟨o', t, path, ⟨-, ⟨cdj', ob', raw', h2, h3, h4, -, h5, h6⟩, -, ⟨acd, h8, -⟩, -, h9⟩, -⟩ :=
      C89_registration_exact.mp h
    rw [hr] at h2
    cases h2
    have he := (parseAttestationObject_ok_iff.mpr ho).symm.trans (parseAttestationObject_ok_iff.mpr h4)
    obtain ⟨rfl, rfl⟩ : o = o' ∧ raw = raw' := by simpa using he
    obtain ⟨origin, -, hc⟩ := own h3
    obtain ⟨r, h10⟩ := whole_attest_takes (whole_attest_ok_iff.mpr ⟨h6, h9⟩)
    exact ⟨origin, r, ⟨cdj, ob, hr, hc, h4, h5, by simp [h8]⟩, h10⟩
  have key : ∀ {u}, AcceptedWhole env p rpId u → Accepted Repaired.attest (markless env) rpId u := by
    intro u h
    cases u with
    | login raw cdj =>
      obtain ⟨σ, reg, a, s, s', sig, handle, h1, hr, hrp⟩ := h
      obtain ⟨data, s1, user, rp, ad, -, ⟨-, h2, -, ⟨cdj', raw', sig', handle', id, h4, h5, h7, h8, h9, h10,
        h11⟩, -, -⟩, -⟩ := C89_login_exact.mp h1
      rw [hr] at h4
      cases h4
      obtain ⟨origin, h12, h13⟩ := own h7
      refine ⟨Unit, ⟨fun _ s => (.ok none, s), fun _ s => (.ok none, s),
        fun _ s => (.ok (some { data with rp := none }), s)⟩,
        { a with expectedOrigin := .one origin, rp := some { name := "", id := rpId } }, (), (), (), sig, handle,
        { data with rp := none }, { name := "", id := rpId }, ?_, hr, rfl, .arg _, rfl⟩
      refine assertion_accepts.mpr ⟨h12, h2, _, (), user, { name := "", id := rpId }, ad, rfl, ⟨cdj, raw, sig, handle, hr, h5,
        .arg _, h13, ⟨h9.1, hrp, h9.2.2⟩, markless_signed h10, h11⟩, rfl⟩
    | androidKey raw cdj =>
      obtain ⟨σ, reg, a, s, s', ob, o, alg, sig, x5c, h1, hr, rfl, ho, hs⟩ := h
      obtain ⟨origin, r, h2, h3⟩ := registration h1 hr ho
      exact ⟨{ a with expectedOrigin := .one origin }, ob, o, r, alg, sig, x5c, hr, rfl, h2, hs, h3⟩
    | u2f hash cdj id x y =>
      obtain ⟨σ, reg, a, s, s', ob, o, raw, sig, x5c, acd, b, crv, h1, hr, rfl, ho, hs, g1, g2, g3, g4⟩ := h
      obtain ⟨origin, r, h2, h3⟩ := registration h1 hr ho
      exact ⟨{ a with expectedOrigin := .one origin }, ob, o, raw, r, sig, x5c, acd, b, crv, hr, rfl, h2, hs, h3, g1, g2, g3, g4⟩
  exact C86_repaired_separate (env := markless env) digest rpId u u' (key h) (key h') he

/-! ## Refusals -/

theorem finalise_kind (e : Exc) : ∃ e' : Exc, finalise (.error e : Py Unit) = .error e' ∧
    (e'.isWebAuthn = true ∨ e'.isException = false) := by
  simp only [finalise, raise]
  split
  · next h => exact ⟨e, rfl, Or.inl h⟩
  · split
    · exact ⟨_, rfl, Or.inl rfl⟩
    · next h => exact ⟨e, rfl, Or.inr (by simpa using h)⟩

/-- C89: what should not be registered leaves the registrar alone, and is refused with an error of
the package (or an exception that is none of Python's `Exception`). -/
theorem C89_registration_refused {σ : Type} {reg : Registrar σ} {a : AttestationArgs} {s : σ}
    (h : ∀ o t path, ¬ GoodRegistration env p a o t path) :
    ∃ e : Exc, Whole.handleAttestation env p reg a s = (.error e, s) ∧
      (e.isWebAuthn = true ∨ e.isException = false) := by
  unfold Whole.handleAttestation
  cases h1 : Whole.attestationChecks env p a with
  | ok r => exact absurd (whole_attestation_ok_iff.mp h1).1 (h _ _ _)
  | error e =>
    obtain ⟨e', h2, h3⟩ := finalise_kind e
    exact ⟨e', by simp only [h2], h3⟩

/-- C89: so is a login that should not succeed, up to the reading of the credential. -/
theorem C89_login_refused {σ : Type} {reg : Registrar σ} {a : AssertionArgs} {s : σ}
    (h : ∀ cd user rp ad, (reg.getCredentialData a.credential.rawId s).1 = .ok (some cd) →
      ¬ GoodLogin env p a cd user rp ad) :
    ∃ (e : Exc) (s' : σ), Whole.handleAssertion env p reg a s = (.error e, s') ∧
      (s' = s ∨ s' = (reg.getCredentialData a.credential.rawId s).2) ∧
      (e.isWebAuthn = true ∨ e.isException = false) := by
  unfold Whole.handleAssertion
  cases h1 : Whole.assertionPre env a with
  | error e =>
    obtain ⟨e', h2, h3⟩ := finalise_kind e
    exact ⟨e', s, by simp only [h2], Or.inl rfl, h3⟩
  | ok allowed =>
    obtain ⟨ha, hl⟩ := whole_pre_ok_iff.mp h1
    cases h2 : reg.getCredentialData a.credential.rawId s with
    | mk r s1 =>
      rw [h2] at h
      simp only
      cases h3 : checkRead r with
      | error e =>
        obtain ⟨e', h4, h5⟩ := finalise_kind e
        exact ⟨e', s1, by simp only [h4], Or.inr rfl, h5⟩
      | ok cd =>
        rw [checkRead_ok_iff] at h3
        simp only
        cases h4 : Whole.assertionChecks env p a allowed cd with
        | error e =>
          obtain ⟨e', h5, h6⟩ := finalise_kind e
          exact ⟨e', s1, by simp only [h5], Or.inr rfl, h6⟩
        | ok r => exact absurd ((whole_assertion_ok_iff ha hl).mp h4).2 (h _ _ _ _ h3)

end WebAuthn.Props
