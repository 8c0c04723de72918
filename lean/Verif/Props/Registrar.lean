import Verif.Model.Registrar
import Verif.Props.Failure

/-!
# Registrars that do not override the methods of the base class (C59)
-/

namespace WebAuthn.Props

open WebAuthn WebAuthn.Spec

section
variable {σ : Type} {env : Env} {reg : Registrar σ}

/-- C59, registration: a registrar that inherits `register_credential_attestation`
refuses every registration and keeps its state; the error of a response that is
otherwise acceptable is `RegistrationError`. -/
theorem C59_registration_not_stored
    (hreg : reg.registerAttestation = CredentialsRegistrar.registerAttestation)
    (a : AttestationArgs) (s : σ) :
    (∃ e, handleAttestation env reg a s = (.error e, s)) ∧
    ∀ o raw, ExpectedOk env a.expectedOrigin → AttestationOk env a o raw → o.attStmt = .none →
      handleAttestation env reg a s = (.error (.lib .registration), s) := by
  constructor
  · unfold handleAttestation
    cases h : attestationChecks env a with
    | error e =>
      cases hf : (finalise (.error e) : Py Unit) with
      | ok u => rw [finalise_ok_iff] at hf; cases hf
      | error e' => exact ⟨e', Prod.ext hf rfl⟩
    | ok r => exact ⟨.lib .registration, by rw [hreg]; rfl⟩
  · intro o raw h1 h2 h3
    have h : attestationChecks env a = .ok ⟨a.credential, o, .NONE, a.user, a.rp, none⟩ :=
      attestationChecks_ok_iff.mpr ⟨h1, ⟨raw, h2⟩, h3, rfl, rfl, rfl, rfl, rfl⟩
    simp only [handleAttestation, h, hreg]
    rfl

/-- C59, authentication: without `get_credential_data` nobody is authenticated,
nothing is written, and a request with acceptable expectations gives
`RegistrationError`. -/
theorem C59_nobody_known
    (hreg : reg.getCredentialData = CredentialsRegistrar.getCredentialData)
    (a : AssertionArgs) (s : σ) (log : List Call) :
    (∃ e calls, handleAssertion env (recording reg) a (s, log) = (.error e, s, log ++ calls) ∧
      (calls = [] ∨ calls = [.read a.credential.rawId])) ∧
    (ExpectedOk env a.expectedOrigin → AllowOk a.allowCredentials a.credential.rawId →
      handleAssertion env (recording reg) a (s, log) =
        (.error (.lib .registration), s, log ++ [.read a.credential.rawId])) := by
  constructor
  · unfold handleAssertion
    cases h : assertionPre env a with
    | error e =>
      cases hf : (finalise (.error e) : Py Unit) with
      | ok u => rw [finalise_ok_iff] at hf; cases hf
      | error e' => exact ⟨e', [], by simp [hf], Or.inl rfl⟩
    | ok al =>
      refine ⟨.lib .registration, _, ?_, Or.inr rfl⟩
      simp only [recording, hreg]
      rfl
  · intro h1 h2
    obtain ⟨al, h3⟩ := expectedOk_iff.mp h1
    have h : assertionPre env a = .ok al := assertionPre_ok_iff.mpr ⟨h3, h2⟩
    simp only [handleAssertion, h, recording, hreg]
    rfl

/-- C59, authentication: without `register_credential_assertion` no
authentication succeeds either, even of a known credential with a valid
response. -/
theorem C59_authentication_not_stored
    (hreg : reg.registerAssertion = CredentialsRegistrar.registerAssertion)
    (a : AssertionArgs) (s : σ) :
    (∃ e, (handleAssertion env reg a s).1 = .error e) ∧
    ∀ cd s1 user rp ad, ExpectedOk env a.expectedOrigin →
      AllowOk a.allowCredentials a.credential.rawId →
      reg.getCredentialData a.credential.rawId s = (.ok (some cd), s1) →
      AssertionOk env a cd user rp ad →
      handleAssertion env reg a s = (.error (.lib .registration), s1) := by
  constructor
  · cases h : (handleAssertion env reg a s).1 with
    | error e => exact ⟨e, rfl⟩
    | ok u =>
      obtain ⟨-, -, cd, s1, user, rp, ad, -, -, hw⟩ :=
        assertion_accepts.mp (Prod.ext h rfl : handleAssertion env reg a s = (.ok (), _))
      rw [hreg] at hw
      cases hw
  · intro cd s1 user rp ad h1 h2 h3 h4
    obtain ⟨al, h5⟩ := expectedOk_iff.mp h1
    have hp : assertionPre env a = .ok al := assertionPre_ok_iff.mpr ⟨h5, h2⟩
    have hc : assertionChecks env a al cd = .ok ⟨a.credential, ad, user, rp⟩ :=
      (assertionChecks_ok_iff h5).mpr ⟨rfl, h4⟩
    simp only [handleAssertion, hp, h3, checkRead, hc, hreg]
    rfl

end

/-- The demonstration registrar without a method for registrations. -/
def inheriting : Registrar Demo.Store :=
  { Demo.registrar with registerAttestation := CredentialsRegistrar.registerAttestation }

example : handleAttestation Demo.env inheriting Demo.regArgs [] =
    (.error (.lib .registration), []) := by
  obtain ⟨h1, o, raw, h2, h3, -⟩ := attestation_accepts.mp (Demo.registration_ok [] rfl)
  exact (C59_registration_not_stored rfl _ _).2 o raw h1 h2 h3

example : ∃ s, handleAssertion Demo.env
    { Demo.registrar with registerAssertion := CredentialsRegistrar.registerAssertion }
    Demo.authArgs [(Demo.credId, Demo.stored 1)] = (.error (.lib .registration), s) := by
  obtain ⟨h1, h2, cd, s1, user, rp, ad, h3, h4, -⟩ :=
    assertion_accepts.mp (Demo.authentication_ok [])
  exact ⟨s1, (C59_authentication_not_stored rfl _ _).2 cd s1 user rp ad h1 h2 h3 h4⟩

end WebAuthn.Props
