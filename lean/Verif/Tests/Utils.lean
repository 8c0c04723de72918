import Verif.Tests.Basic
import Verif.Model.Registrar

/-!
# The cases of tests/test_utils.py, test_validators.py, test_verifiers.py, test_asn1.py and test_registrars.py

Tests of the model, not proofs of claims.
-/

namespace WebAuthn.Tests

open WebAuthn

/-! `test_snake_to_camel_case` (tests/test_utils.py 10-20) -/

example : snakeToCamel "" = "" := by decide +kernel
example : snakeToCamel "___" = "" := by decide +kernel
example : snakeToCamel "a" = "a" := by decide +kernel
example : snakeToCamel "a_b_c" = "aBC" := by decide +kernel
example : snakeToCamel "a__b_c" = "aBC" := by decide +kernel
example : snakeToCamel "a__b__c" = "aBC" := by decide +kernel
example : snakeToCamel "_a__b__c" = "aBC" := by decide +kernel
example : snakeToCamel "_a__b__c_" = "aBC" := by decide +kernel
example : snakeToCamel "a_Bc_d" = "aBcD" := by decide +kernel
example : snakeToCamel "a_BC_d" = "aBCD" := by decide +kernel

/-! `test_camel_to_snake_case` (tests/test_utils.py 23-29) -/

example : camelToSnake "" = "" := by decide +kernel
example : camelToSnake "a" = "a" := by decide +kernel
example : camelToSnake "aBCD" = "a_b_c_d" := by decide +kernel
example : camelToSnake "abCdEf" = "ab_cd_ef" := by decide +kernel
example : camelToSnake "abCDEf" = "ab_c_d_ef" := by decide +kernel
example : camelToSnake "ab_cd_Ef" = "ab_cd__ef" := by decide +kernel

/-! `test_url_base64_encode`, `test_url_base64_decode` (tests/test_utils.py 32-45) -/

example : urlBase64Encode [] = "" := by decide +kernel
example : urlBase64Encode [0xf8] = "-A==" := by decide +kernel
example : urlBase64Encode [0xfc] = "_A==" := by decide +kernel
example : urlBase64Decode "" = .ok [] := by decide +kernel
example : urlBase64Decode "-A==" = .ok [0xf8] := by decide +kernel
example : urlBase64Decode "_A==" = .ok [0xfc] := by decide +kernel
example : urlBase64Decode "-A=" = .ok [0xf8] := by decide +kernel
example : urlBase64Decode "_A=" = .ok [0xfc] := by decide +kernel
example : urlBase64Decode "-A" = .ok [0xf8] := by decide +kernel
example : urlBase64Decode "_A" = .ok [0xfc] := by decide +kernel

/-! `test_curve_coordinate_byte_length` (tests/test_utils.py 48-54) -/

example : ∀ c ∈ [Curve.P_256, .P_384, .P_521, .ED25519, .ED448],
    0 < curveCoordinateByteLength (.name c) ∧ 0 < curveCoordinateByteLength (.value c) := by
  decide +kernel

/-! `test_ec2_hash_algorithm_success`, `test_ec2_hash_algorithm_error`
(tests/test_utils.py 57-75) -/

example : (ec2HashAlgorithm (.name .ES256)).isOk = true := by decide +kernel
example : (ec2HashAlgorithm (.value .ES256)).isOk = true := by decide +kernel
example : ec2HashAlgorithm (.name .EDDSA) = .error .assertionError := by decide +kernel
example : ec2HashAlgorithm (.value .EDDSA) = .error .assertionError := by decide +kernel

/-! `test_validate_success` (tests/test_validators.py 17-30) -/

def ec2Curves : List Curve := [.P_256, .P_384, .P_521]
def okpCurves : List Curve := [.ED25519, .ED448]
def ecdsaAlgs : List Alg := [.ES256, .ES384, .ES512]

example : ∀ c ∈ ec2Curves, ∀ a ∈ ecdsaAlgs, validate (ec2Key c (some (.value a)) 77) = .ok () := by
  decide +kernel
example : ∀ c ∈ okpCurves, validate (okpKey c (some (.value .EDDSA)) 77) = .ok () := by
  decide +kernel

/-! `test_validate_error` (tests/test_validators.py 33-72) -/

/-- `replace_curve` (tests/test_validators.py 33-39). -/
def replaceCurve : CPK → Curve → CPK
  | .ec2 b x y _, c => .ec2 b x y (.value c)
  | .okp b _ x, c => .okp b (.value c) x
  | .base b, _ => .base b

example : ∀ c ∈ ec2Curves, ∀ a ∈ ecdsaAlgs ++ [.EDDSA], ∀ d ∈ okpCurves,
    raises [.validation] (validate (replaceCurve (ec2Key c (some (.value a)) 77) d)) = true := by
  decide +kernel
example : ∀ c ∈ okpCurves, ∀ a ∈ ecdsaAlgs ++ [.EDDSA], ∀ d ∈ ec2Curves,
    raises [.validation] (validate (replaceCurve (okpKey c (some (.value a)) 77) d)) = true := by
  decide +kernel
example : ∀ c ∈ ec2Curves,
    raises [.validation] (validate (ec2Key c (some (.value .EDDSA)) 77)) = true := by
  decide +kernel
example : ∀ c ∈ okpCurves, ∀ a ∈ ecdsaAlgs,
    raises [.validation] (validate (okpKey c (some (.value a)) 77)) = true := by
  decide +kernel

/-! `test_verify_ec2` (tests/test_verifiers.py 17-55) -/

/-- Data to sign: 20 octets here, 100 random ones in the repository. -/
def sampleData (seed : Nat) : Bytes := (List.range 20).map fun i => UInt8.ofNat (i * 7 + seed)

/-- The signature is accepted, and no signature with an error is. -/
def verifies (k : CPK) (sig data : Bytes) : Bool :=
  (verify env k sig data).isOk &&
    (singleByteErrors sig).all fun e => raises [.verification] (verify env k e data)

example : ∀ s ∈ [1, 2], verifies (ec2Key .P_256 (some (.value .ES256)) 1234567)
    (signEc (.ec .SECP256R1 1234567 1234568) .SHA256 (sampleData s)) (sampleData s) = true := by
  decide +kernel
example : ∀ s ∈ [1, 2], verifies (ec2Key .P_384 (some (.value .ES384)) 1234567)
    (signEc (.ec .SECP384R1 1234567 1234568) .SHA384 (sampleData s)) (sampleData s) = true := by
  decide +kernel
example : ∀ s ∈ [1, 2], verifies (ec2Key .P_521 (some (.value .ES512)) 1234567)
    (signEc (.ec .SECP521R1 1234567 1234568) .SHA512 (sampleData s)) (sampleData s) = true := by
  decide +kernel

/-! `test_verify_okp` (tests/test_verifiers.py 58-88) -/

example : ∀ s ∈ [1, 2], verifies (okpKey .ED25519 (some (.value .EDDSA)) 1234567)
    (signEd (.ed25519 (toBE 32 1234567)) (sampleData s)) (sampleData s) = true := by
  decide +kernel
example : ∀ s ∈ [1, 2], verifies (okpKey .ED448 (some (.value .EDDSA)) 1234567)
    (signEd (.ed448 (toBE 57 1234567)) (sampleData s)) (sampleData s) = true := by
  decide +kernel

/-! `test_encode_decode` (tests/test_asn1.py 8-30); the encoding is spelled out -/

/-- The key description is read, and nothing is left. -/
def readsAll (b : Bytes) : Bool :=
  match Der.dec Asn1.keyDescription b with
  | some (_, []) => true
  | _ => false

example : readsAll (tlv [0x30] (tlv [2] [0] ++ tlv [10] [0] ++ tlv [2] [0] ++ tlv [10] [0] ++
    tlv [4] (utf8Encode "attestation-challenge") ++ tlv [4] (utf8Encode "unique-id") ++
    tlv [0x30] (tlv [0xa1] (tlv [0x31] (tlv [2] [1])) ++
      tlv [0xbf, 0x84, 0x58] (tlv [5] []) ++ tlv [0xbf, 0x85, 0x3e] (tlv [2] [0])) ++
    tlv [0x30] [])) = true := by decide +kernel

/-! `test_credentials_registrar` (tests/test_registrars.py 7-28) -/

example (r : AttestationRecord) (s : Unit) :
    raises [.unimplemented] (CredentialsRegistrar.registerAttestation r s).1 = true := rfl
example (r : AssertionRecord) (s : Unit) :
    raises [.unimplemented] (CredentialsRegistrar.registerAssertion r s).1 = true := rfl
example (s : Unit) :
    raises [.unimplemented] (CredentialsRegistrar.getCredentialData [] s).1 = true := rfl

end WebAuthn.Tests
