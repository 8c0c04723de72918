import Verif.Model.Interface

/-!
# The methods of the base class `CredentialsRegistrar` (`webauthn_rp/registrars.py` 36-120)

What a registrar does that does not override a method.  The base class has no
state of its own; the state of a derived class is left alone.
-/

namespace WebAuthn.CredentialsRegistrar

/-- `register_credential_attestation` (registrars.py 46-78). -/
def registerAttestation {σ : Type} (_ : AttestationRecord) (s : σ) : Py (Option String) × σ :=
  (raise .unimplemented, s)

/-- `register_credential_assertion` (registrars.py 80-104). -/
def registerAssertion {σ : Type} (_ : AssertionRecord) (s : σ) : Py (Option String) × σ :=
  (raise .unimplemented, s)

/-- `get_credential_data` (registrars.py 106-120). -/
def getCredentialData {σ : Type} (_ : Bytes) (s : σ) : Py (Option CredentialData) × σ :=
  (raise .unimplemented, s)

end WebAuthn.CredentialsRegistrar
