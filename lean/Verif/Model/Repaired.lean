import Verif.Model.Backend
import Verif.Model.Jsonify

/-!
# The package with a few lines repaired

Not code of the repository: variants of `handle_credential_attestation`,
`cose_key`, `parse_attestation_object`, `parse_cose_key`, `parse_origin` and
`jsonify` that differ from the modelled code in the lines named below.  They show that these lines are all that
stands between the code and the properties C18 - C20, C27, C35, C37 and C40.
-/

namespace WebAuthn.Repaired

open WebAuthn

/-- `attestationChecks` (backends.py 123-206) with the attestation object passed
to `attest` in place of the credential public key (backends.py 205), and, if
`compareIds`, a comparison of the raw id with the attested credential id, which
the code does not have. -/
def attestationChecks (compareIds : Bool) (env : Env) (a : AttestationArgs) :
    Py AttestationRecord := do
  let allowed ← extractAllowedOrigins env a.expectedOrigin
  let cdj := a.credential.response.clientDataJSON
  checkClientData env cdj "webauthn.create" a.expectedChallenge allowed a.tokenBinding
  let clientDataHash := env.sha256 cdj
  let rpIdHash := env.sha256 (utf8Encode a.rp.id)
  let (att, rawAuthData) ← parseAttestationObject env (← a.credential.response.attestationObject)
  checkAuthData att.authData rpIdHash a.requireUserVerification a.expectedExtensions
  let acd ← attestedOf att.authData
  require (!compareIds || a.credential.rawId == acd.credentialId) .attestation
  let (attType, trustedPath) ← attest env att.attStmt (.attObj att) rawAuthData clientDataHash
  return { credential := a.credential, att, attType, user := a.user, rp := a.rp,
           trustedPath }

/-- `handle_credential_attestation` (backends.py 75-230), repaired. -/
def handleAttestation {σ : Type} (compareIds : Bool) (env : Env) (reg : Registrar σ)
    (a : AttestationArgs) (s : σ) : Py Unit × σ :=
  match attestationChecks compareIds env a with
  | .error e => (finalise (.error e), s)
  | .ok record =>
    let (r, s') := reg.registerAttestation record s
    (finalise (checkWrite r), s')

/-- `_build_base_cose_dictionary` (converters.py 163-175) with `base_IV` in place
of `key_ops` in the last condition (converters.py 173). -/
def buildBaseCoseDictionary (b : KeyBase) : Py Dict := do
  let d1 : Dict := [(.int 1, nvValue KeyType.nameTable KeyType.valueTable b.kty)]
  let d2 : Dict := match b.kid with
    | some kid => [(.int 2, .bytes kid)]
    | none => []
  match b.alg with
  | none => .error .assertionError
  | some alg =>
    let d3 : Dict := [(.int 3, nvValue Alg.nameTable Alg.valueTable alg)]
    let d4 : Dict := match b.keyOps with
      | some ops => [(.int 4, .list (ops.map (nvValue KeyOp.nameTable KeyOp.valueTable)))]
      | none => []
    let d5 : Dict := match b.baseIV with
      | some iv => [(.int 5, .bytes iv)]
      | none => []
    return d1 ++ d2 ++ d3 ++ d4 ++ d5

/-- The dictionary of `cose_key` (converters.py 178-223), repaired. -/
def coseKeyDict : CPK → Py Dict
  | .ec2 b x y crv => do
    let d ← buildBaseCoseDictionary b
    return d ++ [(.int (-1), curveValue crv), (.int (-2), .bytes x), (.int (-3), .bytes y)]
  | .okp b crv x => do
    let d ← buildBaseCoseDictionary b
    return d ++ [(.int (-1), curveValue crv), (.int (-2), .bytes x)]
  | .base _ => raise .unimplemented

/-- `cose_key` (converters.py 178-223), repaired. -/
def coseKey (env : Env) (k : CPK) : Py Bytes := do
  env.cborDumps (.dict (← coseKeyDict k))

/-- `cbor2.loads`, refusing bytes after the item; the code calls `cbor2.loads`
(parsers.py 791, 930), which ignores them. -/
def cborLoads (env : Env) (b : Bytes) : Py PyVal := do
  let (v, rest) ← env.cborLoad b
  if rest.isEmpty then return v else .error .cborDecodeValueError

/-- `parse_cose_key` on bytes (parsers.py 789-810), refusing trailing bytes. -/
def parseCoseKeyBytes (env : Env) (b : Bytes) : Py CPK := do
  let v ← catching (cborLoads env b) Exc.isCborDecodeError .decoding
  match v.asDict? with
  | none => raise .parser
  | some d => parseCoseKeyDict d

/-- `parse_attestation_object` (parsers.py 911-972), refusing trailing bytes. -/
def parseAttestationObject (env : Env) (b : Bytes) : Py (AttestationObject × Bytes) := do
  let _ ← catching (cborLoads env b) Exc.isCborDecodeError .decoding
  WebAuthn.parseAttestationObject env b

/-- `ParseResult.hostname` (with `_hostinfo`) of an ASCII authority: without user
information and port, in lower case up to a `%`. -/
def urlHostname (netloc : List Char) : List Char :=
  let hostinfo := afterLastAt netloc
  let host : List Char :=
    match partitionAt '[' hostinfo with
    | (_, some bracketed) => (partitionAt ']' bracketed).1
    | (_, none) => (partitionAt ':' hostinfo).1
  match partitionAt '%' host with
  | (h, some zone) => h.map toLower ++ '%' :: zone
  | (h, none) => h.map toLower

/-- `parse_origin` (parsers.py 54-92) with `url.hostname` in place of `url.netloc`
(parsers.py 82), for ASCII authorities. -/
def parseOrigin (env : Env) (origin : String) : Py Origin := do
  let o ← WebAuthn.parseOrigin env origin
  return { o with hostname := String.ofList (urlHostname o.hostname.toList) }

/-- `math.isfinite(f)`. -/
def isFinite (f : PyFloat) : Bool := f.bits.toNat / 2 ^ 52 % 2 ^ 11 != 2047

mutual

/-- `jsonify` (converters.py 31-73) with a `JSONConversionError` for a float that is no number
(lines 65-66), and with the members left out whose converted value is `None`
(lines 60-62). -/
def jsonify (cc : Bool) : Obj → Py PyVal
  | .enum v => jsonify cc v
  | .inst d =>
    if d.all (fun kv => kv.1.isStr) then do
      return .dict ((← jsonifyItems cc d []).filter fun kv => !kv.2.isNone)
    else raise .jsonConversion
  | .dict d =>
    if d.all (fun kv => kv.1.isStr) then do
      return .dict ((← jsonifyItems cc d []).filter fun kv => !kv.2.isNone)
    else raise .jsonConversion
  | .bytes b => .ok (.str (Base64.b64encode b))
  | .str s => .ok (.str s)
  | .int n => .ok (.int n)
  | .float f => if isFinite f then .ok (.float f) else raise .jsonConversion
  | .bool b => .ok (.bool b)
  | .list l => do return .list (← jsonifyList cc l)
  | .tuple l => do return .list (← jsonifyList cc l)
  | .none => .ok .none
  | .other => raise .unimplemented

/-- The comprehension of converters.py 68. -/
def jsonifyList (cc : Bool) : List Obj → Py (List PyVal)
  | [] => .ok []
  | x :: xs => do
    let v ← jsonify cc x
    let vs ← jsonifyList cc xs
    return v :: vs

/-- The comprehension of converters.py 60-62, before the `None` values are left out. -/
def jsonifyItems (cc : Bool) : List (Obj × Obj) → Dict → Py Dict
  | [], acc => .ok acc
  | (.str k, v) :: d, acc =>
    if v.isNone then jsonifyItems cc d acc
    else do
      let j ← jsonify cc v
      jsonifyItems cc d (acc.put (memberName cc k) j)
  | _ :: d, acc => jsonifyItems cc d acc

end

end WebAuthn.Repaired
