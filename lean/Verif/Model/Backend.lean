import Verif.Model.Attesters
import Verif.Model.Interface

/-!
# `webauthn_rp/backends.py`
-/

namespace WebAuthn

/-! ## Shared checks -/

/-- `CredentialsBackend._extract_allowed_origins` (backends.py 61-73); the set
as a list. -/
def extractAllowedOrigins (env : Env) : ExpectedOrigin → Py (List Origin)
  | .one s => do return [← parseOrigin env s]
  | .many l => do
    require (l.length != 0) .origin
    l.mapM (parseOrigin env)

/-- `challenge = url_base64_decode(...)`, comparison, `except ValueError`
(backends.py 134-142, 366-374).  The `ChallengeError` raised inside the `try` is
not a `ValueError`. -/
def checkChallenge (challenge : String) (expected : Bytes) : Py Unit :=
  catching (do
    let c ← urlBase64Decode challenge
    require (c == expected) .challenge) Exc.isValueError .decoding

/-- `token_binding.id != collected_client_data.token_binding.id`, negated: Python
equality of an `Optional[str]` with any JSON value. -/
def tokenIdEq (expected : Option String) (v : PyVal) : Bool :=
  match expected, v with
  | none, .none => true
  | some s, .str t => s == t
  | _, _ => false

/-- The token binding check (backends.py 150-170, 382-402). -/
def checkTokenBinding (expected : Option TokenBinding) (got : Option ClientTokenBinding) :
    Py Unit :=
  match expected with
  | some tb => match got with
    | none => raise .tokenBinding
    | some g => do
      require (tb.status == g.status) .tokenBinding
      require (tokenIdEq tb.id g.id) .tokenBinding
  | none => require got.isNone .tokenBinding

/-- `hasattr(ext, key) and getattr(ext, key) is not None`: the attributes of
`AuthenticationExtensionsClientOutputs` (types.py 760-768) by name.  On `None`
(no extensions) `hasattr` is false for every extension key. -/
def extAttrPresent (ext : Option Extensions) (key : String) : Bool :=
  match ext with
  | none => false
  | some e =>
    if key = "appid" then e.appid.isSome
    else if key = "tx_auth_simple" then e.txAuthSimple.isSome
    else if key = "tx_auth_generic" then e.txAuthGeneric.isSome
    else if key = "authn_sel" then e.authnSel.isSome
    else if key = "exts" then e.exts.isSome
    else if key = "uvi" then e.uvi.isSome
    else if key = "loc" then e.loc.isSome
    else if key = "uvm" then e.uvm.isSome
    else if key = "biometric_perf_bounds" then e.biometricPerfBounds.isSome
    else false

/-- The extension check (backends.py 191-198, 420-425); the expected set as a
list. -/
def checkExtensions (expected : Option (List ExtId)) (ext : Option Extensions) : Py Unit :=
  match expected with
  | none => .ok ()
  | some l => require (l.all fun e => extAttrPresent ext e.key) .extension

/-- RP ID hash, user presence, user verification and extension checks on parsed
authenticator data (backends.py 178-198, 409-425). -/
def checkAuthData (ad : AuthData) (rpIdHash : Bytes) (requireUV : Bool)
    (expectedExtensions : Option (List ExtId)) : Py Unit := do
  require (ad.rpIdHash == rpIdHash) .rpIdHash
  require (flagUP &&& ad.flags != 0) .userPresence
  require (!requireUV || flagUV &&& ad.flags != 0) .userVerification
  checkExtensions expectedExtensions ad.extensions

/-- The client data checks (backends.py 127-170, 360-402). -/
def checkClientData (env : Env) (clientDataJSON : Bytes) (type : String)
    (expectedChallenge : Bytes) (allowed : List Origin)
    (tokenBinding : Option TokenBinding) : Py Unit := do
  let cd ← parseClientData env clientDataJSON
  require (cd.type == type) .clientDataType
  checkChallenge cd.challenge expectedChallenge
  let origin ← parseOrigin env cd.origin
  require (allowed.contains origin) .origin
  checkTokenBinding tokenBinding cd.tokenBinding

/-- `except WebAuthnRPError: raise  except Exception: raise InternalError`
(backends.py 226-230, 453-457). -/
def finalise {α : Type} : Py α → Py α
  | .ok a => .ok a
  | .error e =>
    if e.isWebAuthn then .error e
    else if e.isException then raise .internal
    else .error e

/-- `try: r = registrar.write(...)  except Exception: raise RegistrationError`,
then `if r is not None: raise RegistrationError` (backends.py 208-225,
438-452). -/
def checkWrite : Py (Option String) → Py Unit
  | .ok none => .ok ()
  | .ok (some _) => raise .registration
  | .error e => if e.isException then raise .registration else .error e

/-! ## Registration -/

/-- `response.client_data_JSON`. -/
def Response.clientDataJSON : Response → Bytes
  | .attestation c _ => c
  | .assertion c _ _ _ => c

/-- `response.attestation_object`: `AttributeError` on an assertion response
(`cast` does nothing at run time). -/
def Response.attestationObject : Response → Py Bytes
  | .attestation _ o => .ok o
  | .assertion .. => .error .attributeError

/-- Everything `handle_credential_attestation` does before it calls the registrar
(backends.py 123-206). -/
def attestationChecks (env : Env) (a : AttestationArgs) : Py AttestationRecord := do
  let allowed ← extractAllowedOrigins env a.expectedOrigin
  let cdj := a.credential.response.clientDataJSON
  checkClientData env cdj "webauthn.create" a.expectedChallenge allowed a.tokenBinding
  let clientDataHash := env.sha256 cdj
  let rpIdHash := env.sha256 (utf8Encode a.rp.id)
  let (att, rawAuthData) ← parseAttestationObject env (← a.credential.response.attestationObject)
  checkAuthData att.authData rpIdHash a.requireUserVerification a.expectedExtensions
  let acd ← attestedOf att.authData
  let (attType, trustedPath) ←
    attest env att.attStmt (.key acd.credentialPublicKey) rawAuthData clientDataHash
  return { credential := a.credential, att, attType, user := a.user, rp := a.rp,
           trustedPath }

/-- `CredentialsBackend.handle_credential_attestation` (backends.py 75-230). -/
def handleAttestation {σ : Type} (env : Env) (reg : Registrar σ) (a : AttestationArgs)
    (s : σ) : Py Unit × σ :=
  match attestationChecks env a with
  | .error e => (finalise (.error e), s)
  | .ok record =>
    let (r, s') := reg.registerAttestation record s
    (finalise (checkWrite r), s')

/-! ## Authentication -/

/-- `response.authenticator_data`. -/
def Response.authenticatorData : Response → Py Bytes
  | .assertion _ d _ _ => .ok d
  | .attestation .. => .error .attributeError

/-- `response.signature`. -/
def Response.signature : Response → Py Bytes
  | .assertion _ _ s _ => .ok s
  | .attestation .. => .error .attributeError

/-- `response.user_handle`. -/
def Response.userHandle : Response → Py (Option Bytes)
  | .assertion _ _ _ u => .ok u
  | .attestation .. => .error .attributeError

/-- Before the registrar is asked (backends.py 305-318): the allowed origins. -/
def assertionPre (env : Env) (a : AssertionArgs) : Py (List Origin) := do
  let allowed ← extractAllowedOrigins env a.expectedOrigin
  match a.allowCredentials with
  | none => return allowed
  | some l => do
    require (l.any fun c => c.id == a.credential.rawId) .credentialNotAllowed
    return allowed

/-- The effective user (backends.py 331-341): the argument, whose id must be the
registered one, or the registered user when the response has a user handle. -/
def effectiveUser (user : Option UserEntity) (registered : UserEntity) (response : Response) :
    Py UserEntity :=
  match user with
  | some u => do
    require (registered.id == u.id) .userId
    return u
  | none => do
    let h ← response.userHandle
    require h.isSome .userHandle
    return registered

/-- User resolution (backends.py 331-345). -/
def resolveUser (user : Option UserEntity) (registered : UserEntity) (response : Response) :
    Py UserEntity := do
  let u ← effectiveUser user registered response
  let handle ← response.userHandle
  require (match handle with
    | some h => h == u.id
    | none => true) .userHandle
  return u

/-- RP resolution (backends.py 347-358). -/
def resolveRp (rp registered : Option RpEntity) : Py RpEntity :=
  match registered, rp with
  | none, none => raise .rpNotFound
  | none, some rp => .ok rp
  | some r, some rp => do
    require (r.id == rp.id) .rpId
    return rp
  | some r, none => .ok r

/-- The counter rule (backends.py 431-436). -/
def checkSignCount (registered : Option Int) (signCount : Nat) (ignoreCloneError : Bool) :
    Py Unit :=
  match registered with
  | none => .ok ()
  | some n => require (!((signCount : Int) ≤ n) || ignoreCloneError) .signatureCount

/-- From the registrar's answer to the second registrar call
(backends.py 331-436). -/
def assertionChecks (env : Env) (a : AssertionArgs) (allowed : List Origin)
    (cd : CredentialData) : Py AssertionRecord := do
  let response := a.credential.response
  let user ← resolveUser a.user cd.user response
  let rp ← resolveRp a.rp cd.rp
  checkClientData env response.clientDataJSON "webauthn.get" a.expectedChallenge allowed
    a.tokenBinding
  let clientDataHash := env.sha256 response.clientDataJSON
  let rpIdHash := env.sha256 (utf8Encode rp.id)
  let raw ← response.authenticatorData
  let ad ← parseAuthenticatorData env raw
  checkAuthData ad rpIdHash a.requireUserVerification a.expectedExtensions
  verify env cd.publicKey (← response.signature) (raw ++ clientDataHash)
  checkSignCount cd.signatureCount ad.signCount a.ignoreCloneError
  return { credential := a.credential, authData := ad, user, rp }

/-- The result of `get_credential_data` as seen by the handler
(backends.py 320-329). -/
def checkRead : Py (Option CredentialData) → Py CredentialData
  | .ok (some cd) => .ok cd
  | .ok none => raise .credentialData
  | .error e => if e.isException then raise .registration else .error e

/-- `CredentialsBackend.handle_credential_assertion` (backends.py 232-457). -/
def handleAssertion {σ : Type} (env : Env) (reg : Registrar σ) (a : AssertionArgs)
    (s : σ) : Py Unit × σ :=
  match assertionPre env a with
  | .error e => (finalise (.error e), s)
  | .ok allowed =>
    let (r, s1) := reg.getCredentialData a.credential.rawId s
    match checkRead r with
    | .error e => (finalise (.error e), s1)
    | .ok cd =>
      match assertionChecks env a allowed cd with
      | .error e => (finalise (.error e), s1)
      | .ok record =>
        let (w, s2) := reg.registerAssertion record s1
        (finalise (checkWrite w), s2)

end WebAuthn
