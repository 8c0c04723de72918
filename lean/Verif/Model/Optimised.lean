import Verif.Model.Backend
import Verif.Model.Options
import Verif.Model.Flask

/-!
# The package under `python -O`

Assertions are not executed.  The functions that contain one, and the functions that call them,
as they are then: where the assertion would have failed, the next use of the value raises.
-/

namespace WebAuthn.Optimised

open WebAuthn

/-- `validate` (validators.py 14-77) without the assertions of lines 44-46 and 69-71:
`alg.name` raises `AttributeError` if `alg` is `None` (51, 76). -/
def validate : CPK → Py Unit
  | .ec2 b _ _ crv => do
    require (crv.id == .P_256 || crv.id == .P_384 || crv.id == .P_521) .validation
    match b.alg with
    | none => .error .attributeError
    | some alg => require (alg.id == .ES256 || alg.id == .ES384 || alg.id == .ES512) .validation
  | .okp b crv _ => do
    require (crv.id == .ED25519 || crv.id == .ED448) .validation
    match b.alg with
    | none => .error .attributeError
    | some alg => require (alg.id == .EDDSA) .validation
  | .base _ => raise .unimplemented

/-- `ec2_hash_algorithm` (utils.py 123-138) without the assertion of line 137: `KeyError`. -/
def ec2HashAlgorithm (alg : NV Alg) : Py HashAlg :=
  match alg.id with
  | .ES256 => .ok .SHA256
  | .ES384 => .ok .SHA384
  | .ES512 => .ok .SHA512
  | .EDDSA => .error .keyError

/-- The attested credential data block (parsers.py 853-882). -/
def parseAttested (env : Env) (rest : Bytes) : Py (AttestedCredentialData × Bytes) :=
  catching (do
    let (aaguid, rest) ← readBytes 16 rest
    let (lenBytes, rest) ← readBytes 2 rest
    let len := beNat lenBytes
    let (credentialId, rest) ← readBytes len rest
    let (v, rest) ← catching (env.cborLoad rest) Exc.isCborDecodeError .decoding
    match v.asDict? with
    | none => raise .parser
    | some d => do
      let cpk ← parseCoseKeyDict d
      validate cpk
      return ({ aaguid, credentialIdLength := len, credentialId,
                credentialPublicKey := some cpk }, rest)) Exc.isEOFError .parser

/-- `parse_authenticator_data` (parsers.py 820-908). -/
def parseAuthenticatorData (env : Env) (authData : Bytes) : Py AuthData := do
  require (37 ≤ authData.length) .parser
  let rpIdHash := authData.take 32
  let flags := (authData.getD 32 0).toNat
  let signCount := beNat ((authData.drop 33).take 4)
  let rest := authData.drop 37
  let (attested, rest) ← optBlock (flags &&& flagAT != 0) (parseAttested env) rest
  let (extensions, rest) ← optBlock (flags &&& flagED != 0) (parseExtData env) rest
  require (rest.take 1 == []) .parser
  return { rpIdHash, flags, signCount, attested, extensions }

/-- `parse_attestation_object` (parsers.py 911-972). -/
def parseAttestationObject (env : Env) (b : Bytes) : Py (AttestationObject × Bytes) := do
  let v ← catching (env.cborLoads b) Exc.isCborDecodeError .decoding
  match v.asDict? with
  | none => raise .parser
  | some d => do
    let (authData, fmt, attStmt, raw) ← catching (do
      let authDataV ← dictIndex d (.str "authData")
      let fmtV ← dictIndex d (.str "fmt")
      let attStmtV ← dictIndex d (.str "attStmt")
      match fmtV.asStr? with
      | none => raise .parser
      | some fmtS => do
        let fmt ← catching (Fmt.call fmtS) Exc.isValueError .parser
        match authDataV.asBytes? with
        | none => raise .parser
        | some raw => do
          let authData ← parseAuthenticatorData env raw
          return (authData, fmt, attStmtV, raw)) Exc.isKeyError .parser
    match attStmt.asDict? with
    | none => raise .parser
    | some sd => do
      let stmt ← parseAttStmt fmt sd
      return ({ authData, fmt, attStmt := stmt }, raw)

/-- `att_obj.auth_data.attested_credential_data` before an attribute of it is read:
`AttributeError` if it is `None` (attesters.py 105-107, 115, 167-168; backends.py 203-205). -/
def attestedOf (ad : AuthData) : Py AttestedCredentialData :=
  match ad.attested with
  | some a => .ok a
  | none => .error .attributeError

/-- `credential_public_key.x`, `.y` (attesters.py 110-111): also `None` has no attribute `x`. -/
def keyXY : Option CPK → Py (Bytes × Bytes)
  | some (.ec2 _ x y _) => .ok (x, y)
  | some (.okp _ _ _) => .error .attributeError
  | some (.base _) => .error .attributeError
  | none => .error .attributeError

/-- `attest_fido_u2f` (attesters.py 59-127) without the assertions of lines 102-103, 109, 118. -/
def attestFidoU2F (env : Env) (sig : Bytes) (x5c : List Bytes) (attObj : AttObjArg)
    (clientDataHash : Bytes) : Py (AttestationType × TrustedPath) :=
  match x5c with
  | [certBytes] => do
    let cert ← catching (env.loadCert certBytes) Exc.isValueError .attestation
    let pk ← cert.publicKey
    match pk with
    | .ec curve _ _ => do
      require (curve == .SECP256R1) .attestation
      let ad ← attObj.authData
      let acd ← attestedOf ad
      let (x, y) ← keyXY acd.credentialPublicKey
      let publicKeyU2F := [4] ++ (x ++ y)
      let verificationData :=
        [0] ++ ad.rpIdHash ++ (clientDataHash ++ acd.credentialId ++ publicKeyU2F)
      catching (env.ecdsaVerify pk .SHA256 sig verificationData)
        isInvalidSignature .attestation
      return (.BASIC, some [cert])
    | _ => raise .attestation
  | _ => raise .attestation

/-- The signature check of `attest_android_key` (attesters.py 173-185) without the assertions
of lines 171, 177-178. -/
def androidVerify (env : Env) (alg : NV Alg) (sig : Bytes) (pk : CryptoKey) (data : Bytes) :
    Py Unit :=
  catching (match pk with
    | .ed25519 _ => env.eddsaVerify pk sig data
    | .ed448 _ => env.eddsaVerify pk sig data
    | _ => do
      let h ← ec2HashAlgorithm alg
      env.ecdsaVerify pk h sig data) isInvalidSignature .attestation

/-- `attest_android_key` (attesters.py 130-240) without the assertions of lines 164-165, 171,
177-178, 200: if the value of the extension is of another class, `extension.value.value` raises
`AttributeError` (207). -/
def attestAndroidKey (env : Env) (alg : NV Alg) (sig : Bytes) (x5c : List Bytes)
    (attObj : AttObjArg) (authData clientDataHash : Bytes) :
    Py (AttestationType × TrustedPath) :=
  match x5c with
  | [] => raise .attestation
  | certBytes :: _ => do
    let cert ← env.loadCert certBytes
    let certPk ← cert.publicKey
    require (isEcOrEdKey certPk) .attestation
    let ad ← attObj.authData
    let acd ← attestedOf ad
    let cpk ← match acd.credentialPublicKey with
      | some k => cryptographyPublicKey env k
      | none => raise .unimplemented
    androidVerify env alg sig certPk (authData ++ clientDataHash)
    require (env.spki cpk == env.spki certPk) .attestation
    let ext ← catching cert.keyAttestationExt isExtensionNotFound .attestation
    let kd ← catching (match ext with
      | some raw => env.decodeDer Asn1.keyDescription raw
      | none => .error .attributeError) isPyAsn1Error .attestation
    checkKeyDescription ⟨Asn1.keyDescription, some kd⟩ clientDataHash
    return (.BASIC, some [cert])

/-- `attest` (attesters.py 37-56, 243-262). -/
def attest (env : Env) (stmt : AttStmt) (attObj : AttObjArg)
    (authData clientDataHash : Bytes) : Py (AttestationType × TrustedPath) :=
  match stmt with
  | .fidoU2F sig x5c => attestFidoU2F env sig x5c attObj clientDataHash
  | .androidKey alg sig x5c =>
    attestAndroidKey env alg sig x5c attObj authData clientDataHash
  | .none => .ok (.NONE, none)
  | _ => raise .unimplemented

/-- `verify` (verifiers.py 22-93). -/
def verify (env : Env) (k : CPK) (signature data : Bytes) : Py Unit :=
  match k with
  | .ec2 b _ _ _ => do
    let pk ← cryptographyPublicKey env k
    match b.alg with
    | none => raise .verification
    | some alg => do
      let h ← ec2HashAlgorithm alg
      catching (env.ecdsaVerify pk h signature data) isInvalidSignature .verification
  | .okp _ _ _ => do
    let pk ← cryptographyPublicKey env k
    catching (env.eddsaVerify pk signature data) isInvalidSignature .verification
  | .base _ => raise .unimplemented

/-- `_build_base_cose_dictionary` (converters.py 163-175) without the assertion of line 169:
`alg.value` raises `AttributeError` if `alg` is `None` (170). -/
def buildBaseCoseDictionary (b : KeyBase) : Py Dict :=
  match b.alg with
  | none => .error .attributeError
  | some _ => WebAuthn.buildBaseCoseDictionary b

/-- `cose_key` (converters.py 178-223). -/
def coseKey (env : Env) (k : CPK) : Py Bytes := do
  let d ← (match k with
    | .ec2 b x y crv => do
      let d ← buildBaseCoseDictionary b
      return d ++ [(.int (-1), curveValue crv), (.int (-2), .bytes x), (.int (-3), .bytes y)]
    | .okp b crv x => do
      let d ← buildBaseCoseDictionary b
      return d ++ [(.int (-1), curveValue crv), (.int (-2), .bytes x)]
    | .base _ => raise .unimplemented)
  env.cborDumps (.dict d)

/-- `handle_credential_attestation` (backends.py 123-206) without the assertions of lines
200-201. -/
def attestationChecks (env : Env) (a : AttestationArgs) : Py AttestationRecord := do
  let allowed ← extractAllowedOrigins env a.expectedOrigin
  let cdj := a.credential.response.clientDataJSON
  checkClientData env cdj "webauthn.create" a.expectedChallenge allowed a.tokenBinding
  let clientDataHash := env.sha256 cdj
  let rpIdHash := env.sha256 (utf8Encode a.rp.id)
  let (att, rawAuthData) ← parseAttestationObject env (← a.credential.response.attestationObject)
  checkAuthData att.authData rpIdHash a.requireUserVerification a.expectedExtensions
  let acd ← attestedOf att.authData
  let (attType, trustedPath) ←
    attest env att.attStmt (.key acd.credentialPublicKey) rawAuthData clientDataHash
  return { credential := a.credential, att, attType, user := a.user, rp := a.rp,
           trustedPath }

/-- `handle_credential_attestation` (backends.py 75-230). -/
def handleAttestation {σ : Type} (env : Env) (reg : Registrar σ) (a : AttestationArgs)
    (s : σ) : Py Unit × σ :=
  match attestationChecks env a with
  | .error e => (finalise (.error e), s)
  | .ok record =>
    let (r, s') := reg.registerAttestation record s
    (finalise (checkWrite r), s')

/-- From the registrar's answer to the second registrar call (backends.py 331-436). -/
def assertionChecks (env : Env) (a : AssertionArgs) (allowed : List Origin)
    (cd : CredentialData) : Py AssertionRecord := do
  let response := a.credential.response
  let user ← resolveUser a.user cd.user response
  let rp ← resolveRp a.rp cd.rp
  checkClientData env response.clientDataJSON "webauthn.get" a.expectedChallenge allowed
    a.tokenBinding
  let clientDataHash := env.sha256 response.clientDataJSON
  let rpIdHash := env.sha256 (utf8Encode rp.id)
  let raw ← response.authenticatorData
  let ad ← parseAuthenticatorData env raw
  checkAuthData ad rpIdHash a.requireUserVerification a.expectedExtensions
  verify env cd.publicKey (← response.signature) (raw ++ clientDataHash)
  checkSignCount cd.signatureCount ad.signCount a.ignoreCloneError
  return { credential := a.credential, authData := ad, user, rp }

/-- `handle_credential_assertion` (backends.py 232-457). -/
def handleAssertion {σ : Type} (env : Env) (reg : Registrar σ) (a : AssertionArgs)
    (s : σ) : Py Unit × σ :=
  match assertionPre env a with
  | .error e => (finalise (.error e), s)
  | .ok allowed =>
    let (r, s1) := reg.getCredentialData a.credential.rawId s
    match checkRead r with
    | .error e => (finalise (.error e), s1)
    | .ok cd =>
      match assertionChecks env a allowed cd with
      | .error e => (finalise (.error e), s1)
      | .ok record =>
        let (w, s2) := reg.registerAssertion record s1
        (finalise (checkWrite w), s2)

/-! ## Builders

The options are given as objects, since an attribute that the assertions keep from being `None`
may now be `None`. -/

/-- builders.py 82-192 without the assertions of lines 92, 109, 171. -/
def setCreation (b : CreationBuilder) : CreationSetter → Py CreationBuilder
  | .rp v => .ok { b with rp := v }
  | .pubKeyCredParams v => .ok { b with pubKeyCredParams := v }
  | .timeout v => .ok { b with timeout := v }
  | .authenticatorSelection v => .ok { b with authenticatorSelection := v }
  | .extensions v => .ok { b with extensions := v }
  | .attestation v => .ok { b with attestation := v }
  | .excludeCredentials v => .ok { b with excludeCredentials := v }

/-- builders.py 289-365 without the assertion of line 302. -/
def setRequest (b : RequestBuilder) : RequestSetter → Py RequestBuilder
  | .mediation v => .ok { b with mediation := v }
  | .timeout v => .ok { b with timeout := v }
  | .rpId v => .ok { b with rpId := v }
  | .extensions v => .ok { b with extensions := v }
  | .userVerification v => .ok { b with userVerification := v }

/-- `CredentialCreationOptionsBuilder.build` (builders.py 194-236) without the assertions of
lines 209-210, 222-224. -/
def buildCreation (b : CreationBuilder) (user : Option UserEntity) (challenge : Option Bytes) :
    Py Obj := do
  let rp ← (match b.rp with
    | none => raise .builder
    | some v => .ok v)
  let params ← (match b.pubKeyCredParams with
    | none => raise .builder
    | some v => .ok v)
  let attestation ← (match b.attestation with
    | none => raise .builder
    | some v => .ok v)
  return .inst [(.str "public_key", .inst [(.str "rp", rp.toObj),
    (.str "user", optObj UserEntity.toObj user), (.str "challenge", optObj .bytes challenge),
    (.str "pub_key_cred_params", params.toObj Parameters.toObj),
    (.str "timeout", optObj .int b.timeout),
    (.str "exclude_credentials", optObj (PySeq.toObj FullDescriptor.toObj) b.excludeCredentials),
    (.str "authenticator_selection", optObj Selection.toObj b.authenticatorSelection),
    (.str "attestation", .enum (.str attestation.value)),
    (.str "extensions", optObj ExtensionInputs.toObj b.extensions)])]

/-- `CredentialRequestOptionsBuilder.build` (builders.py 367-402) without the assertion of
line 388. -/
def buildRequest (b : RequestBuilder) (challenge : Option Bytes)
    (allow : Option (PySeq FullDescriptor)) : Py Obj := do
  let mediation ← (match b.mediation with
    | none => raise .builder
    | some v => .ok v)
  return .inst [(.str "mediation", .enum (.str mediation.value)),
    (.str "public_key", .inst [(.str "challenge", optObj .bytes challenge),
      (.str "timeout", optObj .int b.timeout), (.str "rp_id", optObj .str b.rpId),
      (.str "allow_credentials", optObj (PySeq.toObj FullDescriptor.toObj) allow),
      (.str "user_verification", optObj (fun v => .enum (.str v.value)) b.userVerification),
      (.str "extensions", optObj ExtensionInputs.toObj b.extensions)])]

end WebAuthn.Optimised

namespace WebAuthn.Flask.Optimised

open WebAuthn

/-! ## The example application -/

/-- `register_credential_attestation` (app.py 75-97) without the assertions of lines 83-84. -/
def registerAttestation (env : Env) (r : AttestationRecord) (db : Db) : Py (Option String) × Db :=
  match r.att.authData.attested with
  | none => (.error .attributeError, db)
  | some acd =>
    match db.userOfHandle r.user.id with
    | none => (.ok (some "No user found"), db)
    | some u =>
      match acd.credentialPublicKey with
      | none => (raise .unimplemented, db)
      | some cpk =>
        match WebAuthn.Optimised.coseKey env cpk with
        | .error e => (.error e, db)
        | .ok key =>
          if db.credentials.any fun c => c.id == r.credential.rawId then
            (.error integrityError, db)
          else
            (.ok none, { db with
              credentials := db.credentials ++ [⟨r.credential.rawId, none, key, u.id⟩] })

/-- `RegistrarImpl` (app.py 74-120). -/
def registrar (env : Env) : Registrar Db where
  registerAttestation := registerAttestation env
  registerAssertion := registerAssertion
  getCredentialData := fun id db => (credentialData env id db, db)

/-- `registration_request` (app.py 149-189). -/
def registrationRequest (username : Option String) (newHandle newChallenge : Bytes) (now : Int)
    (db : Db) : Reply × Db :=
  match username with
  | none => (badRequest, db)
  | some name =>
    match findOrAddUser db name newHandle with
    | (.error e, db) => (.crash e, db)
    | (.ok u, db) =>
      match db.addChallenge newChallenge now u.id with
      | (.error e, db) => (.crash e, db)
      | (.ok id, db) =>
        (optionsReply id "creationOptions" (do
          let o ← WebAuthn.Optimised.buildCreation creationBuilder
            (some { name := name, id := u.handle, displayName := name }) (some newChallenge)
          jsonify true o), db)

/-- `registration_response` (app.py 192-231). -/
def registrationResponse (app : App) (f : Form) (now : Int) (db : Db) : Reply × Db :=
  match readResponse app true f now db with
  | .error r => (r, db)
  | .ok (c, ch, u) =>
    let (r, db) := WebAuthn.Optimised.handleAttestation app.env (registrar app.env)
      (attestationArgs c ch u) db
    (conclude "Could not handle credential attestation" r, db)

/-- `authentication_request` (app.py 234-273). -/
def authenticationRequest (username : Option String) (newChallenge : Bytes) (now : Int)
    (db : Db) : Reply × Db :=
  match username with
  | none => (badRequest, db)
  | some name =>
    match db.userNamed name with
    | none => (.text "User not registered" 400, db)
    | some u =>
      let rows := db.credentials.filter fun c => c.userId == u.id
      match db.addChallenge newChallenge now u.id with
      | (.error e, db) => (.crash e, db)
      | (.ok id, db) =>
        (optionsReply id "requestOptions" (do
          let o ← WebAuthn.Optimised.buildRequest requestBuilder (some newChallenge)
            (some { items := rows.map fun c => { id := c.id } })
          jsonify true o), db)

/-- `authentication_response` (app.py 276-315). -/
def authenticationResponse (app : App) (f : Form) (now : Int) (db : Db) : Reply × Db :=
  match readResponse app false f now db with
  | .error r => (r, db)
  | .ok (c, ch, u) =>
    let (r, db) := WebAuthn.Optimised.handleAssertion app.env (registrar app.env)
      (assertionArgs c ch u) db
    (conclude "Could not handle credential assertion" r, db)

def step (app : App) : Event → Db → Reply × Db
  | .registrationRequest n h c t, db => registrationRequest n h c t db
  | .registrationResponse f t, db => registrationResponse app f t db
  | .authenticationRequest n c t, db => authenticationRequest n c t db
  | .authenticationResponse f t, db => authenticationResponse app f t db

end WebAuthn.Flask.Optimised
