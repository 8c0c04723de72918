import Verif.Codec.Der
import Verif.Lemmas.AttestOutcome
import Verif.Props.Repaired
import Verif.Props.Outcome

/-!
# The outcome of `attest` and of the repaired registration (C62)
-/

namespace WebAuthn.Props

open WebAuthn WebAuthn.Spec

/-- C62: which exception `attest` raises, in every case: the checks of the two
implemented formats and their order. -/
theorem C62_attest_error {env : Env} (ht : DerTyped env) {stmt : AttStmt} {o : AttestationObject}
    {raw hash : Bytes} {x : Exc} :
    attest env stmt (.attObj o) raw hash = .error x ↔
      AttestRefused env o.authData raw hash stmt x :=
  attest_attObj_error_iff ht

/-- A certificate that does not load: in the Android format the `ValueError` of
`cryptography` reaches the caller of `attest`. -/
example : attest Demo.env (.androidKey (.value .ES256) [] [[1]]) (.attObj Android.att)
    Android.raw Android.hash = .error .valueError :=
  (C62_attest_error (Der.derTyped rfl)).mpr (.android _ _ _ _ (.cert _ _ _ rfl))

/-- In the U2F format it is `AttestationError`. -/
example : attest Demo.env (.fidoU2F [] [[1]]) (.attObj U2F.att) Android.raw Android.hash =
    .error (.lib .attestation) :=
  (C62_attest_error (Der.derTyped rfl)).mpr (.u2f _ _ _ (.cert _ .valueError _ rfl
    (.caught .ValueError (by simp) (by simp [IsInstance, classesOf]))))

/-- A key description that is not DER. -/
example : attest Demo.env (.androidKey (.value .ES256) Android.sig [0x30 :: 7 :: [0x30, 0x25, 0x02]])
    (.attObj Android.att) Android.raw Android.hash = .error (.lib .attestation) :=
  (C62_attest_error (Der.derTyped rfl)).mpr (.android _ _ _ _ (.notDer _ _
    ⟨beNat [0x30, 0x25, 0x02], .ok (.ec .SECP256R1 7 1), .ok (some [0x30, 0x25, 0x02])⟩
    (.ec .SECP256R1 7 1) Android.key (.ec .SECP256R1 7 1) [0x30, 0x25, 0x02] .pyAsn1Error _
    ⟨rfl, rfl, (fun n h => by cases h), _, rfl, rfl⟩
    (.ec2 _ _ _ _ _ _ _ .p256 (Demo.bigEndian_of rfl) (Demo.bigEndian_of rfl) rfl)
    (.ec _ _ _ .SHA256 .es256 (Demo.check_sign _ _)) rfl rfl rfl
    (.caught .PyAsn1Error (by simp) (by simp [IsInstance, classesOf]))))

theorem statementOk_iff {env : Env} {stmt : AttStmt} {ad : AuthData} {raw hash : Bytes} :
    StatementOk env stmt ad raw hash ↔ ∃ t p, StatementShows env ad raw hash stmt t p := by
  constructor
  · rintro (rfl | ⟨sig, x5c, cert, rfl, h⟩ | ⟨alg, sig, x5c, cert, rfl, h⟩)
    · exact ⟨_, _, .none⟩
    · exact ⟨_, _, .fidoU2F _ _ _ h⟩
    · exact ⟨_, _, .androidKey _ _ _ _ h⟩
  · rintro ⟨t, p, h⟩
    cases h with
    | none => exact Or.inl rfl
    | fidoU2F sig x5c cert h => exact Or.inr (Or.inl ⟨sig, x5c, cert, rfl, h⟩)
    | androidKey alg sig x5c cert h => exact Or.inr (Or.inr ⟨alg, sig, x5c, cert, rfl, h⟩)

/-- C62: a statement is refused exactly if it is not valid, and with one exception
only. -/
theorem C62_attest_total {env : Env} (ht : DerTyped env) {stmt : AttStmt} {ad : AuthData}
    {raw hash : Bytes} :
    (¬ StatementOk env stmt ad raw hash ↔ ∃ x, AttestRefused env ad raw hash stmt x) ∧
    ∀ x y, AttestRefused env ad raw hash stmt x → AttestRefused env ad raw hash stmt y →
      x = y := by
  have h1 := fun x => C62_attest_error ht (stmt := stmt) (o := ⟨ad, .NONE, stmt⟩) (raw := raw)
    (hash := hash) (x := x)
  have h2 := fun t p => attest_attObj_ok_iff (env := env) (o := ⟨ad, .NONE, stmt⟩) (raw := raw)
    (hash := hash) (t := t) (p := p)
  simp only at h1 h2
  refine ⟨?_, ?_⟩
  · simp only [statementOk_iff, ← h1, ← h2]
    cases attest env stmt (.attObj ⟨ad, .NONE, stmt⟩) raw hash with
    | ok v =>
      constructor
      · intro h
        exact absurd ⟨v.1, v.2, rfl⟩ h
      · rintro ⟨x, h⟩
        cases h
    | error e =>
      constructor
      · exact fun _ => ⟨e, rfl⟩
      · rintro - ⟨t, p, h⟩
        cases h
  · intro x y hx hy
    rw [← h1] at hx hy
    rw [hx] at hy
    cases hy
    rfl

example : ∃ x, AttestRefused Demo.env Android.att.authData Android.raw Android.hash
    (.androidKey (.value .ES256) [] [[1]]) x :=
  ⟨_, .android _ _ _ _ (.cert _ _ .valueError rfl)⟩

example : ¬ ∃ x, AttestRefused Demo.env Android.att.authData Android.raw Android.hash
    (.androidKey (.value .ES256) Android.sig Android.x5c) x :=
  fun h => (C62_attest_total (Der.derTyped rfl)).1.mpr h
    (Or.inr (Or.inr ⟨_, _, _, _, rfl, Android.valid⟩))

/-! ## Registration -/

/-- The checks before the statement. -/
def beforeStatement (env : Env) (a : AttestationArgs) :
    Py (AttestationObject × Bytes × AttestedCredentialData) := do
  let allowed ← extractAllowedOrigins env a.expectedOrigin
  let cdj := a.credential.response.clientDataJSON
  checkClientData env cdj "webauthn.create" a.expectedChallenge allowed a.tokenBinding
  let rpIdHash := env.sha256 (utf8Encode a.rp.id)
  let (att, rawAuthData) ← parseAttestationObject env (← a.credential.response.attestationObject)
  checkAuthData att.authData rpIdHash a.requireUserVerification a.expectedExtensions
  let acd ← attestedOf att.authData
  return (att, rawAuthData, acd)

theorem beforeStatement_ok_iff {env : Env} {a : AttestationArgs} {o : AttestationObject}
    {raw : Bytes} {acd : AttestedCredentialData} :
    beforeStatement env a = .ok (o, raw, acd) ↔ ExpectedOk env a.expectedOrigin ∧
      AttestationOk env a o raw ∧ o.authData.attested = some acd := by
  rw [expectedOk_iff]
  unfold beforeStatement AttestationOk
  cases hr : a.credential.response with
  | assertion cdj raw sig handle =>
    simp only [bind_ok_iff, Response.attestationObject, reduceCtorEq, false_and, and_false,
      exists_const]
  | attestation cdj ob =>
    simp only [bind_ok_iff, Response.clientDataJSON, Response.attestationObject, Except.ok.injEq,
      exists_eq_left', Prod.exists, pure_eq_ok, attestedOf_ok_iff, Prod.mk.injEq]
    constructor
    · rintro ⟨allowed, ha, _, h3, o, raw, h4, _, h5, acd, h6, rfl, rfl, rfl⟩
      rw [parseAttestationObject_ok_iff] at h4
      have had : AuthDataOf env raw o.authData := by obtain ⟨_, _, _, _, _, h, _⟩ := h4; exact h
      exact ⟨⟨allowed, ha⟩, ⟨cdj, ob, rfl, (checkClientData_ok_iff ha).mp h3, h4,
        (checkAuthData_ok_iff had).mp h5, by simp [h6]⟩, h6⟩
    · rintro ⟨⟨allowed, ha⟩, ⟨cdj'', ob'', he', h3, h4, h5, h6⟩, h7⟩
      cases he'
      exact ⟨allowed, ha, (), (checkClientData_ok_iff ha).mpr h3, _, _,
        parseAttestationObject_ok_iff.mpr h4, (), (checkAuthData_ok_iff h5.1).mpr h5, acd, h7,
        rfl, rfl, rfl⟩

theorem attestationChecks_eq (env : Env) (a : AttestationArgs) :
    attestationChecks env a = beforeStatement env a >>= fun (att, raw, acd) => do
      let (attType, trustedPath) ← attest env att.attStmt (.key acd.credentialPublicKey) raw
        (env.sha256 a.credential.response.clientDataJSON)
      return { credential := a.credential, att, attType, user := a.user, rp := a.rp,
               trustedPath } := by
  simp only [attestationChecks, beforeStatement, bind_assoc, pure_bind]

theorem repaired_eq (ids : Bool) (env : Env) (a : AttestationArgs) :
    Repaired.attestationChecks ids env a = beforeStatement env a >>= fun (att, raw, acd) => do
      require (!ids || a.credential.rawId == acd.credentialId) .attestation
      let (attType, trustedPath) ← attest env att.attStmt (.attObj att) raw
        (env.sha256 a.credential.response.clientDataJSON)
      return { credential := a.credential, att, attType, user := a.user, rp := a.rp,
               trustedPath } := by
  simp only [Repaired.attestationChecks, beforeStatement, bind_assoc, pure_bind]

theorem repaired_checks_error_iff {env : Env} (ht : DerTyped env) {ids : Bool}
    {a : AttestationArgs} {x : Exc} :
    Repaired.attestationChecks ids env a = .error x ↔ RepairedRefused ids env a x := by
  rw [repaired_eq, bind_error_iff]
  have hid : ∀ {o : AttestationObject} {acd : AttestedCredentialData},
      o.authData.attested = some acd →
      ((!ids || a.credential.rawId == acd.credentialId) = true ↔
        (ids = true → RawIdAttests a.credential o.authData)) := by
    intro o acd h
    have : RawIdAttests a.credential o.authData ↔ a.credential.rawId = acd.credentialId := by
      constructor
      · rintro ⟨acd', h1, h2⟩
        rw [h] at h1
        cases h1
        exact h2
      · exact fun h' => ⟨acd, h, h'⟩
    rw [this]
    cases ids <;> simp
  constructor
  · rintro (h | ⟨⟨o, raw, acd⟩, h, h'⟩)
    · refine .ceremony x (attestationChecks_error_iff.mp ?_) ?_
      · rw [attestationChecks_eq, h, error_bind]
      · intro he o raw hok
        obtain ⟨_, _, _, _, _, _, h4⟩ := id hok
        obtain ⟨acd, h4⟩ := Option.ne_none_iff_exists'.mp h4
        rw [beforeStatement_ok_iff.mpr ⟨he, hok, h4⟩] at h
        cases h
    · obtain ⟨h1, h2, h3⟩ := beforeStatement_ok_iff.mp h
      simp only [bind_error_iff, require_error_iff, require_ok_iff, pure_eq_ok, reduceCtorEq,
        and_false, exists_false, or_false] at h'
      rcases h' with ⟨h', rfl⟩ | ⟨_, h4, h5⟩
      · rw [← Bool.not_eq_true, hid h3] at h'
        push Not at h'
        exact .rawId o raw h1 h2 h'.1 h'.2
      · obtain ⟨cdj, ob, hr, -⟩ := id h2
        rw [hr] at h5
        exact .statement o raw cdj ob x h1 hr h2 ((hid h3).mp h4) ((C62_attest_error ht).mp h5)
  · intro h
    cases h with
    | ceremony _ h1 h2 =>
      cases hb : beforeStatement env a with
      | ok p =>
        obtain ⟨o, raw, acd⟩ := p
        obtain ⟨h3, h4, -⟩ := beforeStatement_ok_iff.mp hb
        exact absurd h4 (h2 h3 o raw)
      | error e =>
        have := attestationChecks_error_iff.mpr h1
        rw [attestationChecks_eq, hb, error_bind] at this
        cases this
        exact Or.inl rfl
    | rawId o raw h1 h2 h3 h4 =>
      obtain ⟨_, _, _, _, _, _, h5⟩ := id h2
      obtain ⟨acd, h5⟩ := Option.ne_none_iff_exists'.mp h5
      refine Or.inr ⟨_, beforeStatement_ok_iff.mpr ⟨h1, h2, h5⟩, ?_⟩
      dsimp only
      rw [require_false, error_bind]
      rw [hid h5]
      exact fun h => h4 (h h3)
    | statement o raw cdj ob _ h1 hr h2 h3 h4 =>
      obtain ⟨_, _, _, _, _, _, h5⟩ := id h2
      obtain ⟨acd, h5⟩ := Option.ne_none_iff_exists'.mp h5
      refine Or.inr ⟨_, beforeStatement_ok_iff.mpr ⟨h1, h2, h5⟩, ?_⟩
      dsimp only
      rw [require_true ((hid h5).mpr h3), ok_bind, hr]
      simp only [Response.clientDataJSON]
      rw [(C62_attest_error ht).mpr h4, error_bind]

/-- C62: the outcome of a registration with the repaired backend, in every case:
what the caller sees and the state of the registrar. -/
theorem C62_repaired_registration {σ : Type} {env : Env} (ht : DerTyped env) {reg : Registrar σ}
    {ids : Bool} {a : AttestationArgs} {s s' : σ} {r : Py Unit} :
    Repaired.handleAttestation ids env reg a s = (r, s') ↔
      RepairedOutcome ids env reg a s r s' := by
  constructor
  · intro h
    unfold Repaired.handleAttestation at h
    split at h
    · next e he =>
      rw [Prod.mk.injEq] at h
      obtain ⟨h, rfl⟩ := h
      cases r with
      | ok u => exact absurd h finalise_ne_ok
      | error y =>
        exact .refused e y ((repaired_checks_error_iff ht).mp he) (finalise_error_iff.mp h)
    · next rec hrec =>
      cases hw : reg.registerAttestation rec s with
      | mk w s1 =>
      rw [hw] at h
      simp only [Prod.mk.injEq] at h
      obtain ⟨h, rfl⟩ := h
      obtain ⟨h1, raw, cdj, ob, h2, h3, h4, h5, e1, e2, e3⟩ := repaired_checks_ok_iff.mp hrec
      obtain ⟨cred, att, ty, user, rp, path⟩ := rec
      simp only at h2 h3 h4 h5 e1 e2 e3
      subst e1 e2 e3
      exact .written att raw cdj ob ty path w s1 r h1 h2 h3 h4 h5 hw (finalise_checkWrite_iff.mp h)
  · intro h
    unfold Repaired.handleAttestation
    cases h with
    | refused x y h1 h2 =>
      rw [(repaired_checks_error_iff ht).mpr h1]
      simp only
      rw [finalise_error_iff.mpr h2]
    | written o raw cdj ob t p w _ _ h1 h2 h3 h4 h5 h6 h7 =>
      have : Repaired.attestationChecks ids env a = .ok ⟨a.credential, o, t, a.user, a.rp, p⟩ :=
        repaired_checks_ok_iff.mpr ⟨h1, raw, cdj, ob, h2, h3, h4, h5, rfl, rfl, rfl⟩
      rw [this]
      simp only [h6]
      rw [finalise_checkWrite_iff.mpr h7]

/-- The FIDO U2F registration of `U2F.args`, with another raw id. -/
example : Repaired.handleAttestation true Demo.env Demo.registrar
    { U2F.args with credential := { U2F.args.credential with rawId := [9] } } [] =
    (.error (.lib .attestation), []) :=
  (C62_repaired_registration (Der.derTyped rfl)).mpr (.refused (.lib .attestation) _
    (.rawId U2F.att Demo.regRaw Demo.expected_ok U2F.response_ok rfl (by
      rintro ⟨acd, h1, h2⟩
      cases h1
      cases h2))
    (.library (by simp [IsInstance, classesOf])))

end WebAuthn.Props
