import Verif.Model.Env

/-!
# `webauthn_rp/registrars.py`, and the parameters of `webauthn_rp/backends.py`

Data types only: the registrar a caller supplies and the keyword arguments of the
two handlers.
-/

namespace WebAuthn

/-! ## Registrars -/

/-- The arguments of `register_credential_attestation` (registrars.py 46-53). -/
structure AttestationRecord where
  credential : Credential
  att : AttestationObject
  attType : AttestationType
  user : UserEntity
  rp : RpEntity
  trustedPath : TrustedPath

/-- The arguments of `register_credential_assertion` (registrars.py 80-83). -/
structure AssertionRecord where
  credential : Credential
  authData : AuthData
  user : UserEntity
  rp : RpEntity

/-- A `CredentialsRegistrar` (registrars.py 36-120) over a state `σ`.  Each
method may change the state, raise, or return; `none` stands for the returned
`None`, `some _` for any other returned object. -/
structure Registrar (σ : Type) where
  registerAttestation : AttestationRecord → σ → Py (Option String) × σ
  registerAssertion : AssertionRecord → σ → Py (Option String) × σ
  getCredentialData : Bytes → σ → Py (Option CredentialData) × σ

/-! ## Parameters of the handlers -/

/-- `expected_origin: Union[str, Collection[str]]`. -/
inductive ExpectedOrigin where
  | one (s : String)
  | many (l : List String)
  deriving DecidableEq, Repr

/-- The keyword arguments of `handle_credential_attestation`
(backends.py 75-86). -/
structure AttestationArgs where
  credential : Credential
  user : UserEntity
  rp : RpEntity
  expectedChallenge : Bytes
  expectedOrigin : ExpectedOrigin
  tokenBinding : Option TokenBinding := none
  requireUserVerification : Bool := false
  expectedExtensions : Option (List ExtId) := none

/-- The keyword arguments of `handle_credential_assertion`
(backends.py 232-245). -/
structure AssertionArgs where
  credential : Credential
  expectedChallenge : Bytes
  expectedOrigin : ExpectedOrigin
  rp : Option RpEntity := none
  user : Option UserEntity := none
  allowCredentials : Option (List Descriptor) := none
  tokenBinding : Option TokenBinding := none
  requireUserVerification : Bool := false
  expectedExtensions : Option (List ExtId) := none
  ignoreCloneError : Bool := false

end WebAuthn
