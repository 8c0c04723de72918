import Verif.Model.Url
import Verif.Model.Base64

/-!
# `webauthn_rp/parsers.py` and `webauthn_rp/validators.py`

(`parse_origin` is in `Model/Url.lean`.)
-/

namespace WebAuthn

/-! ## Dictionary helpers -/

/-- `_parse_dictionary_field(k, types, d)` with `required=True`
(parsers.py 95-111).  `proj v` is `some` exactly when `type(v)` is one of the
valid types. A missing key and a `None` value are treated alike. -/
def field {α : Type} (proj : PyVal → Option α) (k : Key) (d : Dict) : Py α :=
  if (d.get k).isNone then raise .parser
  else match proj (d.get k) with
    | some a => .ok a
    | none => raise .parser

/-- `_parse_dictionary_field(k, types, d, False)` (parsers.py 95-111). -/
def fieldOpt {α : Type} (proj : PyVal → Option α) (k : Key) (d : Dict) : Py (Option α) :=
  if (d.get k).isNone then .ok none
  else match proj (d.get k) with
    | some a => .ok (some a)
    | none => raise .parser

/-- `_check_unsupported_keys` (parsers.py 114-118). -/
def checkUnsupportedKeys (supported : List String) (d : Dict) : Py Unit :=
  require (d.keysWithin supported) .parser

/-- `_bytes_from_base64` (parsers.py 121-125): any `Exception` becomes
`DecodingError`. -/
def bytesFromBase64 (s : String) : Py Bytes :=
  catching (Base64.b64decode s) Exc.isException .decoding

/-! ## Client responses -/

/-- `parse_public_key_credential` (parsers.py 128-190). -/
def parsePublicKeyCredential (data : Dict) : Py Credential := do
  checkUnsupportedKeys ["id", "rawId", "response", "type"] data
  let id ← field PyVal.asStr? (.str "id") data
  let type ← field PyVal.asStr? (.str "type") data
  let rawId ← bytesFromBase64 (← field PyVal.asStr? (.str "rawId") data)
  let response ← field PyVal.asDict? (.str "response") data
  let clientDataJSON ← bytesFromBase64 (← field PyVal.asStr? (.str "clientDataJSON") response)
  if response.has (.str "attestationObject") then do
    checkUnsupportedKeys ["clientDataJSON", "attestationObject"] response
    let attObj ← bytesFromBase64 (← field PyVal.asStr? (.str "attestationObject") response)
    return { id, type, rawId, response := .attestation clientDataJSON attObj }
  else do
    checkUnsupportedKeys ["clientDataJSON", "authenticatorData", "signature", "userHandle"]
      response
    let authData ← bytesFromBase64 (← field PyVal.asStr? (.str "authenticatorData") response)
    let signature ← bytesFromBase64 (← field PyVal.asStr? (.str "signature") response)
    let userHandleB64 ← fieldOpt PyVal.asStr? (.str "userHandle") response
    let userHandle ← match userHandleB64 with
      | none => pure none
      | some s => do pure (some (← bytesFromBase64 s))
    return { id, type, rawId,
             response := .assertion clientDataJSON authData signature userHandle }

/-! ## COSE keys -/

/-- `except (KeyError, ValueError)`. -/
def isKeyOrValueError (e : Exc) : Bool := e.isKeyError || e.isValueError

/-- `_parse_credential_public_key_kty` (parsers.py 193-204). -/
def parseKty (d : Dict) : Py (NV KeyType) := do
  let raw ← field PyVal.asKey? (.int 1) d
  catching (nvCallKey KeyType.nameTable KeyType.valueTable raw) isKeyOrValueError .parser

/-- `_parse_credential_public_key_alg` (parsers.py 207-219). -/
def parseAlg (d : Dict) : Py (NV Alg) := do
  let raw ← field PyVal.asKey? (.int 3) d
  catching (nvCallKey Alg.nameTable Alg.valueTable raw) isKeyOrValueError .parser

/-- The body of the loop at parsers.py 235-245. -/
def parseKeyOp (v : PyVal) : Py (NV KeyOp) :=
  match v.asKey? with
  | none => raise .parser
  | some k => catching (nvCallKey KeyOp.nameTable KeyOp.valueTable k) isKeyOrValueError .parser

/-- `_parse_credential_public_key_key_ops` (parsers.py 222-247). -/
def parseKeyOps (d : Dict) : Py (Option (List (NV KeyOp))) := do
  match ← fieldOpt PyVal.asSeq? (.int 4) d with
  | none => return none
  | some l => do
    require (1 ≤ l.length) .parser
    return some (← l.mapM parseKeyOp)

/-- `_parse_credential_public_key_kwargs` (parsers.py 250-262). -/
def parseKeyKwargs (d : Dict) : Py KeyBase := do
  let kty ← parseKty d
  let kid ← fieldOpt PyVal.asBytes? (.int 2) d
  let alg ← parseAlg d
  let keyOps ← parseKeyOps d
  let baseIV ← fieldOpt PyVal.asBytes? (.int 5) d
  return { kty, kid, alg := some alg, keyOps, baseIV }

/-- `_parse_ec2_public_key_crv` (parsers.py 265-271). -/
def parseEc2Crv (d : Dict) : Py (NV Curve) := do
  let raw ← field PyVal.asKey? (.int (-1)) d
  catching (nvCallKey Curve.ec2NameTable Curve.ec2ValueTable raw) isKeyOrValueError .parser

/-- `_parse_okp_public_key_crv` (parsers.py 274-280). -/
def parseOkpCrv (d : Dict) : Py (NV Curve) := do
  let raw ← field PyVal.asKey? (.int (-1)) d
  catching (nvCallKey Curve.okpNameTable Curve.okpValueTable raw) isKeyOrValueError .parser

/-- `parse_okp_public_key` (parsers.py 283-316). -/
def parseOkpPublicKey (d : Dict) : Py CPK := do
  let x ← field PyVal.asBytes? (.int (-2)) d
  let crv ← parseOkpCrv d
  require (x.length == curveCoordinateByteLength crv) .parser
  let b ← parseKeyKwargs d
  return .okp b crv x

/-- `parse_ec2_public_key` (parsers.py 319-354). -/
def parseEc2PublicKey (d : Dict) : Py CPK := do
  let x ← field PyVal.asBytes? (.int (-2)) d
  let y ← field PyVal.asBytes? (.int (-3)) d
  let crv ← parseEc2Crv d
  require (x.length == curveCoordinateByteLength crv &&
    y.length == curveCoordinateByteLength crv) .parser
  let b ← parseKeyKwargs d
  return .ec2 b x y crv

/-- `parse_cose_key` on a dictionary (parsers.py 798-810).  The parser table
(parsers.py 357-359) has no entry for symmetric keys. -/
def parseCoseKeyDict (d : Dict) : Py CPK := do
  let kt ← catching
    (match d.get? (.int 1) with
      | some v => nvCall KeyType.nameTable KeyType.valueTable v
      | none => .error .keyError) isKeyOrValueError .parser
  match kt.id with
  | .OKP => parseOkpPublicKey d
  | .EC2 => parseEc2PublicKey d
  | .SYMMETRIC => raise .parser

/-- `parse_cose_key` on bytes (parsers.py 789-810). -/
def parseCoseKeyBytes (env : Env) (b : Bytes) : Py CPK := do
  let v ← catching (env.cborLoads b) Exc.isCborDecodeError .decoding
  match v.asDict? with
  | none => raise .parser
  | some d => parseCoseKeyDict d

/-! ## Key validation (`webauthn_rp/validators.py`) -/

/-- `validate_ec2_public_key` (validators.py 30-52) and
`validate_okp_public_key` (validators.py 55-77), dispatched by `validate`
(validators.py 14-27).  Keys always have a curve here, so the assertion
`crv is not None` holds. -/
def validate : CPK → Py Unit
  | .ec2 b _ _ crv => do
    pyAssert (b.kty.id == .EC2)
    match b.alg with
    | none => .error .assertionError
    | some alg => do
      require (crv.id == .P_256 || crv.id == .P_384 || crv.id == .P_521) .validation
      require (alg.id == .ES256 || alg.id == .ES384 || alg.id == .ES512) .validation
  | .okp b crv _ => do
    pyAssert (b.kty.id == .OKP)
    match b.alg with
    | none => .error .assertionError
    | some alg => do
      require (crv.id == .ED25519 || crv.id == .ED448) .validation
      require (alg.id == .EDDSA) .validation
  | .base _ => raise .unimplemented

/-! ## Extensions -/

/-- `if v is not None: if type(v) is not T: raise ParserError` followed by the
use of `v` (parsers.py 401-418, 430-432, 476-479). -/
def optTyped {α : Type} (proj : PyVal → Option α) (v : PyVal) : Py (Option α) :=
  if v.isNone then .ok none
  else match proj v with
    | some a => .ok (some a)
    | none => raise .parser

/-- `type(x) in (int, float)` (parsers.py 438). -/
def PyVal.asNum? : PyVal → Option Num
  | .int n => some (.int n)
  | .float f => some (.float f)
  | _ => Option.none

/-- A required element type: `for e in l: if type(e) is not T: raise ParserError`. -/
def elemTyped {α : Type} (proj : PyVal → Option α) (v : PyVal) : Py α :=
  match proj v with
  | some a => .ok a
  | none => raise .parser

/-- The `exts` check (parsers.py 420-428). -/
def parseExts (v : PyVal) : Py (Option (List String)) :=
  if v.isNone then .ok none
  else match v.asSeq? with
    | none => raise .parser
    | some l => do return some (← l.mapM (elemTyped PyVal.asStr?))

/-- One coordinate: `loc.get(name)` (parsers.py 452-458); the value, if present,
has been checked to be a number. -/
def coordinate (d : Dict) (name : String) : Option Num := (d.get (.str name)).asNum?

/-- The `loc` check (parsers.py 434-458). -/
def parseLoc (v : PyVal) : Py (Option Coordinates) :=
  if v.isNone then .ok none
  else match v.asDict? with
    | none => raise .parser
    | some d => do
      require (d.all fun kv => kv.2.asNum?.isSome) .parser
      require (d.keysWithin ["latitude", "longitude", "altitude", "accuracy",
        "altitudeAccuracy", "heading", "speed"]) .parser
      return some {
        latitude := coordinate d "latitude"
        longitude := coordinate d "longitude"
        altitude := coordinate d "altitude"
        accuracy := coordinate d "accuracy"
        altitudeAccuracy := coordinate d "altitudeAccuracy"
        heading := coordinate d "heading"
        speed := coordinate d "speed" }

/-- One `uvm` entry (parsers.py 465-474). -/
def parseUvmEntry (v : PyVal) : Py (List Int) :=
  match v.asList? with
  | none => raise .parser
  | some l => l.mapM (elemTyped PyVal.asInt?)

/-- The `uvm` check (parsers.py 460-474). -/
def parseUvm (v : PyVal) : Py (Option (List (List Int))) :=
  if v.isNone then .ok none
  else match v.asList? with
    | none => raise .parser
    | some l => do return some (← l.mapM parseUvmEntry)

/-- `parse_extensions` (parsers.py 362-491). -/
def parseExtensions (d : Dict) : Py Extensions := do
  require (d.keysWithin ["appid", "txAuthSimple", "txAuthGeneric", "authnSel", "exts",
    "uvi", "loc", "uvm", "biometricPerfBounds"]) .parser
  let appid ← optTyped PyVal.asBool? (d.get (.str "appid"))
  let txAuthSimple ← optTyped PyVal.asStr? (d.get (.str "txAuthSimple"))
  let txAuthGeneric ← optTyped PyVal.asBytes? (d.get (.str "txAuthGeneric"))
  let authnSel ← optTyped PyVal.asBool? (d.get (.str "authnSel"))
  let exts ← parseExts (d.get (.str "exts"))
  let uvi ← optTyped PyVal.asBytes? (d.get (.str "uvi"))
  let loc ← parseLoc (d.get (.str "loc"))
  let uvm ← parseUvm (d.get (.str "uvm"))
  let biometricPerfBounds ← optTyped PyVal.asBool? (d.get (.str "biometricPerfBounds"))
  return { appid, txAuthSimple, txAuthGeneric, authnSel, exts, uvi, loc, uvm,
           biometricPerfBounds }

/-! ## Attestation statements -/

/-- `_parse_attestation_statement_alg` (parsers.py 494-503). -/
def parseStmtAlg (d : Dict) : Py (NV Alg) := do
  let raw ← field PyVal.asKey? (.str "alg") d
  catching (nvCallKey Alg.nameTable Alg.valueTable raw) isKeyOrValueError .parser

/-- `_parse_attestation_statement_x5c` (parsers.py 506-512). -/
def parseStmtX5c (d : Dict) : Py (List Bytes) := do
  let l ← field PyVal.asSeq? (.str "x5c") d
  l.mapM (elemTyped PyVal.asBytes?)

/-- `parse_packed_attestation_statement` (parsers.py 515-550). -/
def parsePackedStmt (d : Dict) : Py AttStmt := do
  let alg ← parseStmtAlg d
  let sig ← field PyVal.asBytes? (.str "sig") d
  if d.has (.str "x5c") then do
    checkUnsupportedKeys ["alg", "sig", "x5c"] d
    return .packedX509 alg sig (← parseStmtX5c d)
  else if d.has (.str "ecdaaKeyId") then do
    checkUnsupportedKeys ["alg", "sig", "ecdaaKeyId"] d
    return .packedECDAA alg sig (← field PyVal.asBytes? (.str "ecdaaKeyId") d)
  else do
    checkUnsupportedKeys ["alg", "sig"] d
    return .packed alg sig

/-- `parse_tpm_attestation_statement` (parsers.py 553-602). -/
def parseTpmStmt (d : Dict) : Py AttStmt := do
  let alg ← parseStmtAlg d
  let sig ← field PyVal.asBytes? (.str "sig") d
  let ver ← field PyVal.asStr? (.str "ver") d
  let certInfo ← field PyVal.asBytes? (.str "certInfo") d
  let pubArea ← field PyVal.asBytes? (.str "pubArea") d
  if d.has (.str "x5c") then do
    checkUnsupportedKeys ["alg", "sig", "ver", "certInfo", "pubArea", "x5c"] d
    return .tpmX509 alg sig ver certInfo pubArea (← parseStmtX5c d)
  else if d.has (.str "ecdaaKeyId") then do
    checkUnsupportedKeys ["alg", "sig", "ver", "certInfo", "pubArea", "ecdaaKeyId"] d
    return .tpmECDAA alg sig ver certInfo pubArea
      (← field PyVal.asBytes? (.str "ecdaaKeyId") d)
  else do
    checkUnsupportedKeys ["alg", "sig", "ver", "certInfo", "pubArea"] d
    return .tpm alg sig ver certInfo pubArea

/-- `parse_android_key_attestation_statement` (parsers.py 605-626). -/
def parseAndroidKeyStmt (d : Dict) : Py AttStmt := do
  let alg ← parseStmtAlg d
  let sig ← field PyVal.asBytes? (.str "sig") d
  let x5c ← parseStmtX5c d
  checkUnsupportedKeys ["alg", "sig", "x5c"] d
  return .androidKey alg sig x5c

/-- `parse_android_safetynet_attestation_statement` (parsers.py 629-649). -/
def parseSafetyNetStmt (d : Dict) : Py AttStmt := do
  let ver ← field PyVal.asStr? (.str "ver") d
  let response ← field PyVal.asBytes? (.str "response") d
  checkUnsupportedKeys ["ver", "response"] d
  return .safetyNet ver response

/-- `parse_fido_u2f_attestation_statement` (parsers.py 652-672). -/
def parseFidoU2FStmt (d : Dict) : Py AttStmt := do
  let sig ← field PyVal.asBytes? (.str "sig") d
  let x5c ← parseStmtX5c d
  checkUnsupportedKeys ["sig", "x5c"] d
  return .fidoU2F sig x5c

/-- `parse_none_attestation_statement` (parsers.py 675-692). -/
def parseNoneStmt (d : Dict) : Py AttStmt := do
  checkUnsupportedKeys [] d
  return .none

/-- The dispatch table `_AttestationStatementParser` (parsers.py 695-701). -/
def parseAttStmt : Fmt → Dict → Py AttStmt
  | .PACKED => parsePackedStmt
  | .TPM => parseTpmStmt
  | .ANDROID_KEY => parseAndroidKeyStmt
  | .ANDROID_SAFETYNET => parseSafetyNetStmt
  | .FIDO_U2F => parseFidoU2FStmt
  | .NONE => parseNoneStmt

/-! ## Client data -/

/-- The token binding part of `parse_client_data` (parsers.py 735-761). -/
def parseTokenBinding (v : PyVal) : Py (Option ClientTokenBinding) :=
  if v.isNone then .ok none
  else match v.asDict? with
    | none => raise .parser
    | some d => do
      require (!(d.get (.str "status")).isNone) .parser
      let status ← catching (TokenBindingStatus.call (d.get (.str "status")))
        Exc.isValueError .parser
      require (!(status == .PRESENT && (d.get (.str "id")).isNone)) .parser
      return some { status, id := d.get (.str "id") }

/-- `parse_client_data` (parsers.py 704-766). -/
def parseClientData (env : Env) (clientDataJSON : Bytes) : Py ClientData := do
  let v ← catching (do env.jsonLoads (← utf8Decode clientDataJSON)) Exc.isUnicodeOrJson .decoding
  match v.asDict? with
  | none => raise .parser
  | some d =>
    match (d.get (.str "type")).asStr?, (d.get (.str "challenge")).asStr?,
        (d.get (.str "origin")).asStr? with
    | some type, some challenge, some origin => do
      let tokenBinding ← parseTokenBinding (d.get (.str "tokenBinding"))
      return { type, challenge, origin, tokenBinding }
    | _, _, _ => raise .parser

/-! ## Authenticator data -/

/-- `_read_bytes` (parsers.py 813-817) on the remaining bytes of the stream. -/
def readBytes (n : Nat) (rest : Bytes) : Py (Bytes × Bytes) :=
  if rest.length < n then .error .eofError else .ok (rest.take n, rest.drop n)

/-- The attested credential data block (parsers.py 853-882). -/
def parseAttested (env : Env) (rest : Bytes) : Py (AttestedCredentialData × Bytes) :=
  catching (do
    let (aaguid, rest) ← readBytes 16 rest
    let (lenBytes, rest) ← readBytes 2 rest
    let len := beNat lenBytes
    let (credentialId, rest) ← readBytes len rest
    let (v, rest) ← catching (env.cborLoad rest) Exc.isCborDecodeError .decoding
    match v.asDict? with
    | none => raise .parser
    | some d => do
      let cpk ← parseCoseKeyDict d
      validate cpk
      return ({ aaguid, credentialIdLength := len, credentialId,
                credentialPublicKey := some cpk }, rest)) Exc.isEOFError .parser

/-- The extension block (parsers.py 884-896). -/
def parseExtData (env : Env) (rest : Bytes) : Py (Extensions × Bytes) :=
  catching (do
    let (v, rest) ← catching (env.cborLoad rest) Exc.isCborDecodeError .decoding
    match v.asDict? with
    | none => raise .parser
    | some d => do return (← parseExtensions d, rest)) Exc.isEOFError .parser

/-- An optional block of the authenticator data, read when its flag is set
(`if flags & ...`, parsers.py 853 and 884). -/
def optBlock {α : Type} (present : Bool) (read : Bytes → Py (α × Bytes)) (rest : Bytes) :
    Py (Option α × Bytes) :=
  if present then do
    let (a, rest) ← read rest
    return (some a, rest)
  else .ok (none, rest)

/-- `parse_authenticator_data` (parsers.py 820-908). -/
def parseAuthenticatorData (env : Env) (authData : Bytes) : Py AuthData := do
  require (37 ≤ authData.length) .parser
  let rpIdHash := authData.take 32
  let flags := (authData.getD 32 0).toNat
  let signCount := beNat ((authData.drop 33).take 4)
  let rest := authData.drop 37
  let (attested, rest) ← optBlock (flags &&& flagAT != 0) (parseAttested env) rest
  let (extensions, rest) ← optBlock (flags &&& flagED != 0) (parseExtData env) rest
  require (rest.take 1 == []) .parser
  return { rpIdHash, flags, signCount, attested, extensions }

/-! ## Attestation object -/

/-- `d[k]`. -/
def dictIndex (d : Dict) (k : Key) : Py PyVal :=
  match d.get? k with
  | some v => .ok v
  | none => .error .keyError

/-- `parse_attestation_object` (parsers.py 911-972).  Python returns the decoded
dictionary as second component; its only use is `raw_att_obj['authData']`
(backends.py 206), so the raw `authData` bytes are returned instead. -/
def parseAttestationObject (env : Env) (b : Bytes) : Py (AttestationObject × Bytes) := do
  let v ← catching (env.cborLoads b) Exc.isCborDecodeError .decoding
  match v.asDict? with
  | none => raise .parser
  | some d => do
    let (authData, fmt, attStmt, raw) ← catching (do
      let authDataV ← dictIndex d (.str "authData")
      let fmtV ← dictIndex d (.str "fmt")
      let attStmtV ← dictIndex d (.str "attStmt")
      match fmtV.asStr? with
      | none => raise .parser
      | some fmtS => do
        let fmt ← catching (Fmt.call fmtS) Exc.isValueError .parser
        match authDataV.asBytes? with
        | none => raise .parser
        | some raw => do
          let authData ← parseAuthenticatorData env raw
          return (authData, fmt, attStmtV, raw)) Exc.isKeyError .parser
    match attStmt.asDict? with
    | none => raise .parser
    | some sd => do
      let stmt ← parseAttStmt fmt sd
      return ({ authData, fmt, attStmt := stmt }, raw)

end WebAuthn
