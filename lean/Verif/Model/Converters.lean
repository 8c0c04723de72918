import Verif.Model.Parsers

/-!
# `webauthn_rp/converters.py` (keys) and `webauthn_rp/verifiers.py`

(`jsonify` is in `Model/Jsonify.lean`.)
-/

namespace WebAuthn

/-! ## Conversion to `cryptography` keys -/

/-- `cryptography_ec2_public_key` (converters.py 94-130): the curve object. -/
def ec2CurveClass (crv : NV Curve) : Py CurveClass :=
  match crv.id with
  | .P_256 => .ok .SECP256R1
  | .P_384 => .ok .SECP384R1
  | .P_521 => .ok .SECP521R1
  | _ => raise .unimplemented

/-- `cryptography_public_key` (converters.py 76-91) dispatching to
`cryptography_ec2_public_key` (94-130) and `cryptography_okp_public_key`
(133-160). -/
def cryptographyPublicKey (env : Env) : CPK → Py CryptoKey
  | .ec2 _ x y crv => do
    let c ← ec2CurveClass crv
    catching (env.ecPoint c (beNat x) (beNat y)) Exc.isValueError .publicKeyConversion
    return .ec c (beNat x) (beNat y)
  | .okp _ crv x =>
    catching (match crv.id with
      | .ED25519 => do env.ed25519Load x; return .ed25519 x
      | .ED448 => do env.ed448Load x; return .ed448 x
      | _ => raise .unimplemented) Exc.isValueError .publicKeyConversion
  | .base _ => raise .unimplemented

/-! ## COSE encoding -/

/-- `_build_base_cose_dictionary` (converters.py 163-175).  Lines 173-174 write
entry 5 (`base_IV`) when `key_ops` is not `None`, as in the source. -/
def buildBaseCoseDictionary (b : KeyBase) : Py Dict := do
  let d1 : Dict := [(.int 1, nvValue KeyType.nameTable KeyType.valueTable b.kty)]
  let d2 : Dict := match b.kid with
    | some kid => [(.int 2, .bytes kid)]
    | none => []
  match b.alg with
  | none => .error .assertionError
  | some alg =>
    let d3 : Dict := [(.int 3, nvValue Alg.nameTable Alg.valueTable alg)]
    let d4 : Dict := match b.keyOps with
      | some ops => [(.int 4, .list (ops.map (nvValue KeyOp.nameTable KeyOp.valueTable)))]
      | none => []
    let d5 : Dict := match b.keyOps with
      | some _ => [(.int 5, match b.baseIV with
          | some iv => .bytes iv
          | none => .none)]
      | none => []
    return d1 ++ d2 ++ d3 ++ d4 ++ d5

/-- `crv.value` for a member of one of the two curve enums. -/
def curveValue (crv : NV Curve) : PyVal :=
  nvValue (Curve.ec2NameTable ++ Curve.okpNameTable)
    (Curve.ec2ValueTable ++ Curve.okpValueTable) crv

/-- The dictionary built by `cose_key` (converters.py 178-223) before
`cbor2.dumps`. -/
def coseKeyDict : CPK → Py Dict
  | .ec2 b x y crv => do
    let d ← buildBaseCoseDictionary b
    return d ++ [(.int (-1), curveValue crv), (.int (-2), .bytes x), (.int (-3), .bytes y)]
  | .okp b crv x => do
    let d ← buildBaseCoseDictionary b
    return d ++ [(.int (-1), curveValue crv), (.int (-2), .bytes x)]
  | .base _ => raise .unimplemented

/-- `cose_key` (converters.py 178-223). -/
def coseKey (env : Env) (k : CPK) : Py Bytes := do
  env.cborDumps (.dict (← coseKeyDict k))

/-! ## Signature verification (`webauthn_rp/verifiers.py`) -/

/-- `isinstance(e, InvalidSignature)`. -/
def isInvalidSignature : Exc → Bool
  | .invalidSignature => true
  | _ => false

/-- `verify` (verifiers.py 22-39) dispatching to `verify_ec2_public_key`
(42-68) and `verify_okp_public_key` (71-93). -/
def verify (env : Env) (k : CPK) (signature data : Bytes) : Py Unit :=
  match k with
  | .ec2 b _ _ _ => do
    let pk ← cryptographyPublicKey env k
    match b.alg with
    | none => raise .verification
    | some alg => do
      let h ← ec2HashAlgorithm alg
      catching (env.ecdsaVerify pk h signature data) isInvalidSignature .verification
  | .okp _ _ _ => do
    let pk ← cryptographyPublicKey env k
    catching (env.eddsaVerify pk signature data) isInvalidSignature .verification
  | .base _ => raise .unimplemented

end WebAuthn
