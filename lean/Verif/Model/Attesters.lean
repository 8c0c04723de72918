import Verif.Model.Converters

/-!
# `webauthn_rp/attesters.py`
-/

namespace WebAuthn

/-- What is passed as the `att_obj` argument of `attest`.  Python does not check
it; `CredentialsBackend` passes a credential public key (backends.py 203-206). -/
inductive AttObjArg where
  | attObj (o : AttestationObject)
  | key (k : Option CPK)

/-- `att_obj.auth_data`: `AttributeError` on a key (or on `None`). -/
def AttObjArg.authData : AttObjArg → Py AuthData
  | .attObj o => .ok o.authData
  | .key _ => .error .attributeError

/-- `assert att_obj.auth_data is not None`,
`assert att_obj.auth_data.attested_credential_data is not None`
(attesters.py 102-103, 164-165). -/
def attestedOf (ad : AuthData) : Py AttestedCredentialData :=
  match ad.attested with
  | some a => .ok a
  | none => .error .assertionError

/-- The `x` and `y` attributes of a credential public key: `AttributeError` for
classes without them (attesters.py 110-111). -/
def keyXY : CPK → Py (Bytes × Bytes)
  | .ec2 _ x y _ => .ok (x, y)
  | .okp _ _ _ => .error .attributeError
  | .base _ => .error .attributeError

/-- `attest_fido_u2f` (attesters.py 59-127). -/
def attestFidoU2F (env : Env) (sig : Bytes) (x5c : List Bytes) (attObj : AttObjArg)
    (clientDataHash : Bytes) : Py (AttestationType × TrustedPath) :=
  match x5c with
  | [certBytes] => do
    let cert ← catching (env.loadCert certBytes) Exc.isValueError .attestation
    let pk ← cert.publicKey
    match pk with
    | .ec curve _ _ => do
      require (curve == .SECP256R1) .attestation
      let ad ← attObj.authData
      let acd ← attestedOf ad
      match acd.credentialPublicKey with
      | none => .error .assertionError
      | some cpk => do
        let (x, y) ← keyXY cpk
        let publicKeyU2F := [4] ++ (x ++ y)
        let verificationData :=
          [0] ++ ad.rpIdHash ++ (clientDataHash ++ acd.credentialId ++ publicKeyU2F)
        catching (env.ecdsaVerify pk .SHA256 sig verificationData)
          isInvalidSignature .attestation
        return (.BASIC, some [cert])
    | _ => raise .attestation
  | _ => raise .attestation

/-- `isinstance(e, ExtensionNotFound)`. -/
def isExtensionNotFound : Exc → Bool
  | .extensionNotFound => true
  | _ => false

/-- `isinstance(e, PyAsn1Error)`. -/
def isPyAsn1Error : Exc → Bool
  | .pyAsn1Error => true
  | _ => false

/-- The signature check of `attest_android_key` (attesters.py 173-185). -/
def androidVerify (env : Env) (alg : NV Alg) (sig : Bytes) (pk : CryptoKey) (data : Bytes) :
    Py Unit :=
  catching (match pk with
    | .ed25519 _ => env.eddsaVerify pk sig data
    | .ed448 _ => env.eddsaVerify pk sig data
    | .ec _ _ _ => do
      let h ← ec2HashAlgorithm alg
      env.ecdsaVerify pk h sig data
    | .other _ => .error .assertionError) isInvalidSignature .attestation

/-- `isinstance(pk, (EllipticCurvePublicKey, Ed25519PublicKey, Ed448PublicKey))`. -/
def isEcOrEdKey : CryptoKey → Bool
  | .other _ => false
  | _ => true

/-- The key description checks (attesters.py 213-238), with
`KM_ORIGIN_GENERATED = 0` and `KM_PURPOSE_SIGN = 2` (constants.py 9-10). -/
def checkKeyDescription (kd : Asn1.Obj) (clientDataHash : Bytes) : Py Unit := do
  let challenge ← (← kd.item "attestationChallenge").asOctets
  require (challenge == clientDataHash) .attestation
  let allAppsSe ← (← kd.item "softwareEnforced").item "allApplications"
  let allAppsTee ← (← kd.item "teeEnforced").item "allApplications"
  require (!(allAppsSe.hasValue || allAppsTee.hasValue)) .attestation
  let teeOrigin ← (← kd.item "teeEnforced").item "origin"
  let teePurpose ← (← kd.item "teeEnforced").item "purpose"
  require teeOrigin.hasValue .attestation
  require ((← teeOrigin.toInt) == 0) .attestation
  require teePurpose.hasValue .attestation
  require ((← teePurpose.count 2) != 0) .attestation

/-- `attest_android_key` (attesters.py 130-240). -/
def attestAndroidKey (env : Env) (alg : NV Alg) (sig : Bytes) (x5c : List Bytes)
    (attObj : AttObjArg) (authData clientDataHash : Bytes) :
    Py (AttestationType × TrustedPath) :=
  match x5c with
  | [] => raise .attestation
  | certBytes :: _ => do
    let cert ← env.loadCert certBytes
    let certPk ← cert.publicKey
    require (isEcOrEdKey certPk) .attestation
    let ad ← attObj.authData
    let acd ← attestedOf ad
    let cpk ← match acd.credentialPublicKey with
      | some k => cryptographyPublicKey env k
      | none => raise .unimplemented
    androidVerify env alg sig certPk (authData ++ clientDataHash)
    require (env.spki cpk == env.spki certPk) .attestation
    let ext ← catching (do
      match ← cert.keyAttestationExt with
      | some raw => pure raw
      | none => .error .assertionError) isExtensionNotFound .attestation
    let kd ← catching (env.decodeDer Asn1.keyDescription ext) isPyAsn1Error .attestation
    checkKeyDescription ⟨Asn1.keyDescription, some kd⟩ clientDataHash
    return (.BASIC, some [cert])

/-- `attest` (attesters.py 37-56): single dispatch on the statement class, with
`UnimplementedError` for classes without a registered implementation, and
`attest_none` (243-262). -/
def attest (env : Env) (stmt : AttStmt) (attObj : AttObjArg)
    (authData clientDataHash : Bytes) : Py (AttestationType × TrustedPath) :=
  match stmt with
  | .fidoU2F sig x5c => attestFidoU2F env sig x5c attObj clientDataHash
  | .androidKey alg sig x5c =>
    attestAndroidKey env alg sig x5c attObj authData clientDataHash
  | .none => .ok (.NONE, none)
  | .packed .. => raise .unimplemented
  | .packedX509 .. => raise .unimplemented
  | .packedECDAA .. => raise .unimplemented
  | .tpm .. => raise .unimplemented
  | .tpmX509 .. => raise .unimplemented
  | .tpmECDAA .. => raise .unimplemented
  | .safetyNet .. => raise .unimplemented

end WebAuthn
