import Verif.Model.Repaired
import Verif.Model.RepairedExtensions
import Verif.Model.RepairedU2F
import Verif.Model.RepairedAndroid
import Verif.Model.RepairedClient
import Verif.Model.KeyUse
import Verif.Model.Choosy

/-!
# The package with all repairs at once

Not code of the repository: the two handlers of `CredentialsBackend` with the repairs of
`Verif/Model/Repaired*.lean`, `Verif/Model/KeyUse.lean` and `Verif/Model/Choosy.lean` together, as
part of the package rather than of a registrar.  The backend has to know two things more, which the
Relying Party has in its options.
-/

namespace WebAuthn.Whole

open WebAuthn

/-- What the Relying Party asked for: the algorithms of `pub_key_cred_params`, and the AppID of the
extension inputs, if any. -/
structure Policy where
  algs : List Alg
  appId : Option String := none

/-- `_extract_allowed_origins` (backends.py 61-73) with the repaired `parse_origin`. -/
def extractAllowedOrigins (env : Env) : ExpectedOrigin → Py (List Origin)
  | .one s => do return [← Repaired.parseOrigin env s]
  | .many l => do
    require (l.length != 0) .origin
    l.mapM (Repaired.parseOrigin env)

/-- The client data checks (backends.py 127-170, 360-402) with the repaired
`parse_client_data` and `parse_origin`. -/
def checkClientData (env : Env) (clientDataJSON : Bytes) (type : String)
    (expectedChallenge : Bytes) (allowed : List Origin)
    (tokenBinding : Option TokenBinding) : Py Unit := do
  let cd ← Repaired.parseClientData env clientDataJSON
  require (cd.type == type) .clientDataType
  checkChallenge cd.challenge expectedChallenge
  let origin ← Repaired.parseOrigin env cd.origin
  require (allowed.contains origin) .origin
  checkTokenBinding tokenBinding cd.tokenBinding

/-- The checks that the repaired `parse_extensions` adds. -/
def documented (e : Extensions) : Bool :=
  e.authnSel != some false && e.biometricPerfBounds != some false && e.loc.all Repaired.position &&
    e.uvm.all fun l => l.all fun entry => entry.length == 3

def checkOutputs (ad : AuthData) : Py Unit := require (ad.extensions.all documented) .parser

/-- The key is one that was asked for. -/
def checkKey (p : Policy) : Option CPK → Py Unit
  | some k => require (algIn p.algs k && webAuthnKey k) .attestation
  | none => raise .attestation

/-- `attest` (attesters.py 37-56) with the repaired checks of FIDO U2F and Android key statements. -/
def attest (env : Env) (stmt : AttStmt) (attObj : AttObjArg) (authData clientDataHash : Bytes) :
    Py (AttestationType × TrustedPath) :=
  match stmt with
  | .androidKey alg sig x5c =>
    Repaired.attestAndroidKey env alg sig x5c attObj authData clientDataHash
  | stmt => Repaired.attest env stmt attObj authData clientDataHash

/-- Everything `handle_credential_attestation` does before it calls the registrar
(backends.py 123-206). -/
def attestationChecks (env : Env) (p : Policy) (a : AttestationArgs) : Py AttestationRecord := do
  let allowed ← extractAllowedOrigins env a.expectedOrigin
  let cdj := a.credential.response.clientDataJSON
  checkClientData env cdj "webauthn.create" a.expectedChallenge allowed a.tokenBinding
  let clientDataHash := env.sha256 cdj
  let rpIdHash := env.sha256 (utf8Encode a.rp.id)
  let (att, rawAuthData) ←
    Repaired.parseAttestationObject env (← a.credential.response.attestationObject)
  checkOutputs att.authData
  checkAuthData att.authData rpIdHash a.requireUserVerification a.expectedExtensions
  let acd ← attestedOf att.authData
  require (a.credential.rawId == acd.credentialId) .attestation
  checkKey p acd.credentialPublicKey
  let (attType, trustedPath) ← attest env att.attStmt (.attObj att) rawAuthData clientDataHash
  return { credential := a.credential, att, attType, user := a.user, rp := a.rp,
           trustedPath }

/-- `handle_credential_attestation` (backends.py 75-230). -/
def handleAttestation {σ : Type} (env : Env) (p : Policy) (reg : Registrar σ) (a : AttestationArgs)
    (s : σ) : Py Unit × σ :=
  match attestationChecks env p a with
  | .error e => (finalise (.error e), s)
  | .ok record =>
    let (r, s') := reg.registerAttestation record s
    (finalise (checkWrite r), s')

/-- The id whose hash is expected: the AppID if the outputs say that it was used, which they may
say only if the Relying Party has one. -/
def expectedId (p : Policy) (rp : RpEntity) (ad : AuthData) : Py String :=
  if ad.extensions.any fun e => e.appid == some true then
    match p.appId with
    | some id => .ok id
    | none => raise .extension
  else .ok rp.id

/-- From the registrar's answer to the second registrar call (backends.py 331-436). -/
def assertionChecks (env : Env) (p : Policy) (a : AssertionArgs) (allowed : List Origin)
    (cd : CredentialData) : Py AssertionRecord := do
  let response := a.credential.response
  let user ← resolveUser a.user cd.user response
  let rp ← resolveRp a.rp cd.rp
  checkClientData env response.clientDataJSON "webauthn.get" a.expectedChallenge allowed
    a.tokenBinding
  let clientDataHash := env.sha256 response.clientDataJSON
  let raw ← response.authenticatorData
  let ad ← parseAuthenticatorData env raw
  checkOutputs ad
  let id ← expectedId p rp ad
  checkAuthData ad (env.sha256 (utf8Encode id)) a.requireUserVerification a.expectedExtensions
  require (forVerification cd.publicKey) .verification
  verify env cd.publicKey (← response.signature) (raw ++ clientDataHash)
  checkSignCount cd.signatureCount ad.signCount a.ignoreCloneError
  return { credential := a.credential, authData := ad, user, rp }

/-- Before the registrar is asked (backends.py 305-318). -/
def assertionPre (env : Env) (a : AssertionArgs) : Py (List Origin) := do
  let allowed ← extractAllowedOrigins env a.expectedOrigin
  match a.allowCredentials with
  | none => return allowed
  | some l => do
    require (l.any fun c => c.id == a.credential.rawId) .credentialNotAllowed
    return allowed

/-- `handle_credential_assertion` (backends.py 232-457). -/
def handleAssertion {σ : Type} (env : Env) (p : Policy) (reg : Registrar σ) (a : AssertionArgs)
    (s : σ) : Py Unit × σ :=
  match assertionPre env a with
  | .error e => (finalise (.error e), s)
  | .ok allowed =>
    let (r, s1) := reg.getCredentialData a.credential.rawId s
    match checkRead r with
    | .error e => (finalise (.error e), s1)
    | .ok cd =>
      match assertionChecks env p a allowed cd with
      | .error e => (finalise (.error e), s1)
      | .ok record =>
        let (w, s2) := reg.registerAssertion record s1
        (finalise (checkWrite w), s2)

end WebAuthn.Whole
