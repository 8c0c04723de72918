import Verif.Model.Optimised
import Verif.Lemmas.OutcomeParse

/-!
# The package under `python -O`: what stays the same
-/

namespace WebAuthn

open Spec

/-- The exceptions in which the two programs may differ. -/
def Builtin (e : Exc) : Prop :=
  e = .assertionError ∨ e = .attributeError ∨ e = .keyError

/-- Equal, but for the built-in exception raised. -/
def Alike {α : Type} (x y : Py α) : Prop :=
  x = y ∨ ∃ e f, x = .error e ∧ y = .error f ∧ Builtin e ∧ Builtin f

theorem Alike.rfl {α : Type} {x : Py α} : Alike x x := .inl (Eq.refl x)

theorem alike_error {α : Type} {e f : Exc} (he : Builtin e) (hf : Builtin f) :
    Alike (.error e : Py α) (.error f) := .inr ⟨e, f, Eq.refl _, Eq.refl _, he, hf⟩

theorem Alike.bind {α β : Type} {x y : Py α} {f g : α → Py β} (h : Alike x y)
    (hfg : ∀ a, Alike (f a) (g a)) : Alike (x >>= f) (y >>= g) := by
  rcases h with rfl | ⟨e, e', rfl, rfl, he, he'⟩
  · cases x with
    | error e => exact .rfl
    | ok a => exact hfg a
  · exact alike_error he he'

/-- As `Alike.bind`, with the fact that the first part succeeded. -/
theorem Alike.bindOk {α β : Type} {x : Py α} {f g : α → Py β}
    (hfg : ∀ a, x = .ok a → Alike (f a) (g a)) : Alike (x >>= f) (x >>= g) := by
  cases x with
  | error e => exact .rfl
  | ok a => exact hfg a (Eq.refl _)

theorem Alike.catching {α : Type} {x y : Py α} {p : Exc → Bool} {l : LibErr} (h : Alike x y)
    (hp : ∀ e, Builtin e → p e = false) : Alike (catching x p l) (catching y p l) := by
  rcases h with rfl | ⟨e, e', rfl, rfl, he, he'⟩
  · exact .rfl
  · simp only [WebAuthn.catching, hp e he, hp e' he']
    exact alike_error he he'

theorem Alike.finalise {α : Type} {x y : Py α} (h : Alike x y) : finalise x = finalise y := by
  rcases h with rfl | ⟨e, e', rfl, rfl, he, he'⟩
  · exact Eq.refl _
  · rcases he with rfl | rfl | rfl <;> rcases he' with rfl | rfl | rfl <;> exact Eq.refl _

theorem Alike.checkWrite {x y : Py (Option String)} (h : Alike x y) :
    checkWrite x = checkWrite y := by
  rcases h with rfl | ⟨e, e', rfl, rfl, he, he'⟩
  · exact Eq.refl _
  · rcases he with rfl | rfl | rfl <;> rcases he' with rfl | rfl | rfl <;> exact Eq.refl _

theorem Alike.ok_iff {α : Type} {x y : Py α} (h : Alike x y) (a : α) : x = .ok a ↔ y = .ok a := by
  rcases h with rfl | ⟨e, e', rfl, rfl, -, -⟩
  · exact Iff.rfl
  · simp

theorem Alike.lib_iff {α : Type} {x y : Py α} (h : Alike x y) (l : LibErr) :
    x = .error (.lib l) ↔ y = .error (.lib l) := by
  rcases h with rfl | ⟨e, e', rfl, rfl, he, he'⟩
  · exact Iff.rfl
  · rcases he with rfl | rfl | rfl <;> rcases he' with rfl | rfl | rfl <;> simp

theorem builtin_assertion : Builtin .assertionError := .inl rfl
theorem builtin_attribute : Builtin .attributeError := .inr (.inl rfl)
theorem builtin_key : Builtin .keyError := .inr (.inr rfl)

theorem invalidSignature_builtin (e : Exc) (h : Builtin e) : isInvalidSignature e = false := by
  rcases h with rfl | rfl | rfl <;> rfl

/-! ## Parsers -/

/-- On a key that `parse_cose_key` returned, the assertions of `validate` hold. -/
theorem optimised_validate {d : Dict} {k : CPK} (h : CoseKeyOf d k) :
    Optimised.validate k = validate k := by
  cases k with
  | base b => exact absurd h id
  | ec2 b x y crv =>
    obtain ⟨⟨-, -, ⟨alg, v, ha, -⟩, -⟩, hk, -⟩ := h
    simp only [Optimised.validate, validate, ha, hk, pyAssert, beq_self_eq_true, if_true, ok_bind]
  | okp b crv x =>
    obtain ⟨⟨-, -, ⟨alg, v, ha, -⟩, -⟩, hk, -⟩ := h
    simp only [Optimised.validate, validate, ha, hk, pyAssert, beq_self_eq_true, if_true, ok_bind]

theorem optimised_parseAttested (env : Env) :
    Optimised.parseAttested env = parseAttested env := by
  have hk : ∀ d : Dict, ∀ g : CPK → Py (AttestedCredentialData × Bytes),
      (parseCoseKeyDict d >>= fun k => Optimised.validate k >>= fun _ => g k) =
      (parseCoseKeyDict d >>= fun k => validate k >>= fun _ => g k) := by
    intro d g
    cases hp : parseCoseKeyDict d with
    | error e => rfl
    | ok k => simp only [ok_bind, optimised_validate (parseCoseKeyDict_ok_iff.mp hp)]
  funext rest
  simp only [Optimised.parseAttested, parseAttested, hk]
  rfl

theorem optimised_parseAuthenticatorData (env : Env) :
    Optimised.parseAuthenticatorData env = parseAuthenticatorData env := by
  funext b
  simp only [Optimised.parseAuthenticatorData, parseAuthenticatorData, optimised_parseAttested]

theorem optimised_parseAttestationObject (env : Env) :
    Optimised.parseAttestationObject env = parseAttestationObject env := by
  funext b
  simp only [Optimised.parseAttestationObject, parseAttestationObject,
    optimised_parseAuthenticatorData]
  rfl

/-! ## Attesters and verifiers -/

theorem alike_ec2Hash (alg : NV Alg) :
    Alike (Optimised.ec2HashAlgorithm alg) (ec2HashAlgorithm alg) := by
  simp only [Optimised.ec2HashAlgorithm, ec2HashAlgorithm]
  cases alg.id
  · exact .rfl
  · exact .rfl
  · exact .rfl
  · exact alike_error builtin_key builtin_assertion

theorem alike_attestedOf (ad : AuthData) :
    Alike (Optimised.attestedOf ad) (attestedOf ad) := by
  simp only [Optimised.attestedOf, attestedOf]
  cases ad.attested
  · exact alike_error builtin_attribute builtin_assertion
  · exact .rfl

theorem alike_attestFidoU2F (env : Env) (sig : Bytes) (x5c : List Bytes) (o : AttObjArg)
    (h : Bytes) :
    Alike (Optimised.attestFidoU2F env sig x5c o h) (attestFidoU2F env sig x5c o h) := by
  unfold Optimised.attestFidoU2F attestFidoU2F
  match x5c with
  | [] => exact .rfl
  | _ :: _ :: _ => exact .rfl
  | [_] =>
    refine .bind .rfl fun cert => .bind .rfl fun pk => ?_
    cases pk with
    | ec c px py =>
      refine .bind .rfl fun _ => .bind .rfl fun ad => .bind (alike_attestedOf ad) fun acd => ?_
      cases acd.credentialPublicKey with
      | none => exact alike_error builtin_attribute builtin_assertion
      | some k => cases k <;> exact .rfl
    | _ => exact .rfl

theorem alike_androidVerify (env : Env) (alg : NV Alg) (sig : Bytes) {pk : CryptoKey}
    (hpk : isEcOrEdKey pk = true) (data : Bytes) :
    Alike (Optimised.androidVerify env alg sig pk data) (androidVerify env alg sig pk data) := by
  unfold Optimised.androidVerify androidVerify
  refine .catching ?_ invalidSignature_builtin
  cases pk with
  | ed25519 _ => exact .rfl
  | ed448 _ => exact .rfl
  | ec _ _ _ => exact .bind (alike_ec2Hash alg) fun _ => .rfl
  | other _ => simp [isEcOrEdKey] at hpk

theorem alike_attestAndroidKey (env : Env) (alg : NV Alg) (sig : Bytes) (x5c : List Bytes)
    (o : AttObjArg) (a h : Bytes) :
    Alike (Optimised.attestAndroidKey env alg sig x5c o a h)
      (attestAndroidKey env alg sig x5c o a h) := by
  unfold Optimised.attestAndroidKey attestAndroidKey
  split
  · exact .rfl
  · refine .bind .rfl fun cert => .bind .rfl fun pk => .bindOk fun _ hpk =>
      .bind .rfl fun ad => .bind (alike_attestedOf ad) fun acd => ?_
    have hpk := require_ok_iff.mp hpk
    have tail : ∀ cpk, Alike (do
        Optimised.androidVerify env alg sig pk (a ++ h)
        require (env.spki cpk == env.spki pk) .attestation
        let ext ← catching cert.keyAttestationExt isExtensionNotFound .attestation
        let kd ← catching (match ext with
          | some raw => env.decodeDer Asn1.keyDescription raw
          | none => .error .attributeError) isPyAsn1Error .attestation
        checkKeyDescription ⟨Asn1.keyDescription, some kd⟩ h
        return (AttestationType.BASIC, some [cert])) (do
        androidVerify env alg sig pk (a ++ h)
        require (env.spki cpk == env.spki pk) .attestation
        let ext ← catching (do
          match ← cert.keyAttestationExt with
          | some raw => pure raw
          | none => .error .assertionError) isExtensionNotFound .attestation
        let kd ← catching (env.decodeDer Asn1.keyDescription ext) isPyAsn1Error .attestation
        checkKeyDescription ⟨Asn1.keyDescription, some kd⟩ h
        return (AttestationType.BASIC, some [cert])) := by
      intro cpk
      refine .bind (alike_androidVerify env alg sig hpk _) fun _ => .bind .rfl fun _ => ?_
      cases cert.keyAttestationExt with
      | error e =>
        simp only [error_bind, catching]
        split <;> exact .rfl
      | ok v =>
        cases v with
        | none => exact alike_error builtin_attribute builtin_assertion
        | some raw => exact .rfl
    cases acd.credentialPublicKey with
    | none => exact .rfl
    | some k => exact .bind .rfl tail

theorem alike_attest (env : Env) (stmt : AttStmt) (o : AttObjArg) (a h : Bytes) :
    Alike (Optimised.attest env stmt o a h) (attest env stmt o a h) := by
  cases stmt with
  | fidoU2F sig x5c => exact alike_attestFidoU2F env sig x5c o h
  | androidKey alg sig x5c => exact alike_attestAndroidKey env alg sig x5c o a h
  | _ => exact .rfl

theorem alike_verify (env : Env) (k : CPK) (sig data : Bytes) :
    Alike (Optimised.verify env k sig data) (verify env k sig data) := by
  cases k with
  | base b => exact .rfl
  | okp b crv x => exact .rfl
  | ec2 b x y crv =>
    simp only [Optimised.verify, verify]
    refine .bind .rfl fun pk => ?_
    cases b.alg with
    | none => exact .rfl
    | some alg => exact .bind (alike_ec2Hash alg) fun _ => .rfl

/-! ## Encoding of keys -/

theorem alike_coseKey (env : Env) (k : CPK) :
    Alike (Optimised.coseKey env k) (coseKey env k) := by
  have hb : ∀ b, Alike (Optimised.buildBaseCoseDictionary b) (buildBaseCoseDictionary b) := by
    intro b
    simp only [Optimised.buildBaseCoseDictionary]
    cases ha : b.alg with
    | some a => exact .rfl
    | none =>
      simp only [buildBaseCoseDictionary, ha]
      exact alike_error builtin_attribute builtin_assertion
  unfold Optimised.coseKey coseKey
  refine .bind ?_ fun _ => .rfl
  cases k with
  | base b => exact .rfl
  | ec2 b x y crv => exact .bind (hb b) fun _ => .rfl
  | okp b crv x => exact .bind (hb b) fun _ => .rfl

/-! ## Handlers -/

theorem alike_attestationChecks (env : Env) (a : AttestationArgs) :
    Alike (Optimised.attestationChecks env a) (attestationChecks env a) := by
  unfold Optimised.attestationChecks attestationChecks
  rw [optimised_parseAttestationObject]
  exact .bind .rfl fun _ => .bind .rfl fun _ => .bind .rfl fun _ => .bind .rfl fun _ =>
    .bind .rfl fun _ => .bind (alike_attestedOf _) fun _ => .bind (alike_attest ..) fun _ => .rfl

theorem alike_assertionChecks (env : Env) (a : AssertionArgs) (l : List Origin)
    (cd : CredentialData) :
    Alike (Optimised.assertionChecks env a l cd) (assertionChecks env a l cd) := by
  unfold Optimised.assertionChecks assertionChecks
  rw [optimised_parseAuthenticatorData]
  exact .bind .rfl fun _ => .bind .rfl fun _ => .bind .rfl fun _ => .bind .rfl fun _ =>
    .bind .rfl fun _ => .bind .rfl fun _ => .bind .rfl fun _ => .bind (alike_verify ..) fun _ => .rfl

/-- Two registrars whose writes of registrations differ at most in the built-in exception. -/
theorem optimised_handleAttestation {σ : Type} (env : Env) {reg reg' : Registrar σ}
    (hreg : ∀ r s, Alike (reg.registerAttestation r s).1 (reg'.registerAttestation r s).1 ∧
      (reg.registerAttestation r s).2 = (reg'.registerAttestation r s).2)
    (a : AttestationArgs) (s : σ) :
    Optimised.handleAttestation env reg a s = handleAttestation env reg' a s := by
  unfold Optimised.handleAttestation handleAttestation
  rcases alike_attestationChecks env a with h | ⟨e, f, he, hf, hb, hb'⟩
  · rw [h]
    cases attestationChecks env a with
    | error e => rfl
    | ok r => simp only [(hreg r s).1.checkWrite, (hreg r s).2]
  · rw [he, hf]
    simp only [Alike.finalise (alike_error hb hb')]

theorem optimised_handleAssertion {σ : Type} (env : Env) (reg : Registrar σ)
    (a : AssertionArgs) (s : σ) :
    Optimised.handleAssertion env reg a s = handleAssertion env reg a s := by
  unfold Optimised.handleAssertion handleAssertion
  cases assertionPre env a with
  | error e => rfl
  | ok l =>
    simp only
    cases checkRead (reg.getCredentialData a.credential.rawId s).1 with
    | error e => rfl
    | ok cd =>
      simp only
      rcases alike_assertionChecks env a l cd with h | ⟨e, f, he, hf, hb, hb'⟩
      · rw [h]
        rfl
      · rw [he, hf]
        simp only [Alike.finalise (alike_error hb hb')]

/-! ## Builders -/

theorem optimised_buildCreation (b : CreationBuilder) (u : UserEntity) (c : Bytes) :
    Optimised.buildCreation b (some u) (some c) =
      (b.build (some u) (some c) >>= fun o => pure o.toObj) := by
  simp only [Optimised.buildCreation, CreationBuilder.build]
  cases b.rp <;> cases b.pubKeyCredParams <;> cases b.attestation <;> rfl

theorem optimised_buildRequest (b : RequestBuilder) (c : Bytes)
    (l : Option (PySeq FullDescriptor)) :
    Optimised.buildRequest b (some c) l =
      (b.build (some c) l >>= fun o => pure o.toObj) := by
  simp only [Optimised.buildRequest, RequestBuilder.build]
  cases b.mediation <;> rfl

end WebAuthn

namespace WebAuthn.Flask

theorem alike_registerAttestation (env : Env) (r : AttestationRecord) (db : Db) :
    Alike (Optimised.registerAttestation env r db).1 (registerAttestation env r db).1 ∧
      (Optimised.registerAttestation env r db).2 = (registerAttestation env r db).2 := by
  unfold Optimised.registerAttestation registerAttestation
  cases r.att.authData.attested with
  | none => exact ⟨alike_error builtin_attribute builtin_assertion, rfl⟩
  | some acd =>
    simp only
    cases db.userOfHandle r.user.id with
    | none => exact ⟨.rfl, rfl⟩
    | some u =>
      simp only
      cases acd.credentialPublicKey with
      | none => exact ⟨.rfl, rfl⟩
      | some k =>
        simp only
        rcases alike_coseKey env k with h | ⟨e, f, he, hf, hb, hb'⟩
        · rw [h]
          exact ⟨.rfl, rfl⟩
        · rw [he, hf]
          exact ⟨alike_error hb hb', rfl⟩

theorem optimised_step (app : App) (e : Event) (db : Db) :
    Optimised.step app e db = step app e db := by
  cases e with
  | registrationRequest n h c t =>
    simp only [Optimised.step, step, Optimised.registrationRequest, registrationRequest,
      optimised_buildCreation, bind_assoc, pure_bind]
    rfl
  | authenticationRequest n c t =>
    simp only [Optimised.step, step, Optimised.authenticationRequest, authenticationRequest,
      optimised_buildRequest, bind_assoc, pure_bind]
    rfl
  | registrationResponse f t =>
    simp only [Optimised.step, step, Optimised.registrationResponse, registrationResponse]
    cases readResponse app true f t db with
    | error r => rfl
    | ok x =>
      obtain ⟨c, ch, u⟩ := x
      simp only
      rw [optimised_handleAttestation app.env (reg' := registrar app.env)
        (fun r s => alike_registerAttestation app.env r s)]
  | authenticationResponse f t =>
    simp only [Optimised.step, step, Optimised.authenticationResponse, authenticationResponse]
    cases readResponse app false f t db with
    | error r => rfl
    | ok x =>
      obtain ⟨c, ch, u⟩ := x
      simp only [optimised_handleAssertion]
      rfl

end WebAuthn.Flask
