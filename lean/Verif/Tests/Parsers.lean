import Verif.Tests.Basic

/-!
# The cases of tests/test_parsers.py

Every case of the parametrised tests of the repository, read from its text, holds of the model.
These are tests of the model, not proofs of claims.  Left out: the case b'!@#$%^&*()-+' of
`test__bytes_from_base64_error`, whose argument is not of the annotated type.
-/

namespace WebAuthn.Tests

open WebAuthn

/-! `test__parse_dictionary_field_success` (tests/test_parsers.py 23-40) -/

example : field PyVal.asInt? (.str "key") [(.str "key", .int 1), (.str "a", .int 1)] = .ok 1 := by
    decide +kernel
example : field PyVal.asStr? (.str "key") [(.str "key", .str "val")] = .ok "val" := by
    decide +kernel
example : field PyVal.asKey? (.str "key") [(.str "key", .int 1)] = .ok (.int 1) := by decide +kernel
example : field PyVal.asKey? (.str "key") [(.str "key", .str "val")] = .ok (.str "val") := by
    decide +kernel
example : fieldOpt PyVal.asInt? (.str "key") [(.str "key", .int 1), (.str "a", .int 1)] = .ok (some
    1) := by decide +kernel
example : fieldOpt PyVal.asStr? (.str "key") [(.str "key", .str "val")] = .ok (some "val") := by
    decide +kernel
example : fieldOpt PyVal.asKey? (.str "key") [(.str "key", .int 1)] = .ok (some (.int 1)) := by
    decide +kernel
example : fieldOpt PyVal.asKey? (.str "key") [(.str "key", .str "val")] = .ok (some (.str "val")) :=
    by decide +kernel
example : fieldOpt PyVal.asInt? (.str "key") [] = .ok none := by decide +kernel
example : fieldOpt (fun _ => (none : Option Unit)) (.str "key") [] = .ok none := by decide +kernel
example : fieldOpt (fun _ => (none : Option Unit)) (.str "key") [(.str "a", .int 1)] = .ok none :=
    by decide +kernel

/-! `test__parse_dictionary_field_error` (tests/test_parsers.py 43-60) -/

example : field PyVal.asInt? (.str "key") [(.str "a", .int 1)] = .error (.lib .parser) := by
    decide +kernel
example : field PyVal.asStr? (.str "key") [(.str "a", .str "val")] = .error (.lib .parser) := by
    decide +kernel
example : field PyVal.asKey? (.str "key") [(.str "a", .int 1)] = .error (.lib .parser) := by
    decide +kernel
example : field PyVal.asKey? (.str "key") [(.str "a", .str "val")] = .error (.lib .parser) := by
    decide +kernel
example : field PyVal.asStr? (.str "key") [(.str "key", .int 1), (.str "a", .int 1)] = .error (.lib
    .parser) := by decide +kernel
example : field PyVal.asInt? (.str "key") [(.str "key", .str "val")] = .error (.lib .parser) := by
    decide +kernel
example : field bytesOrStr? (.str "key") [(.str "key", .int 1)] = .error (.lib .parser) := by
    decide +kernel
example : field intOrBytes? (.str "key") [(.str "key", .str "val")] = .error (.lib .parser) := by
    decide +kernel
example : fieldOpt PyVal.asStr? (.str "key") [(.str "key", .int 1), (.str "a", .int 1)] = .error
    (.lib .parser) := by decide +kernel
example : fieldOpt PyVal.asInt? (.str "key") [(.str "key", .str "val")] = .error (.lib .parser) :=
    by decide +kernel
example : fieldOpt bytesOrStr? (.str "key") [(.str "key", .int 1)] = .error (.lib .parser) := by
    decide +kernel
example : fieldOpt intOrBytes? (.str "key") [(.str "key", .str "val")] = .error (.lib .parser) := by
    decide +kernel

/-! `test__check_unsupported_keys` (tests/test_parsers.py 63-77) -/

example : checkUnsupportedKeys ["a", "b"] [(.str "a", .int 1)] = .ok () := by decide +kernel
example : checkUnsupportedKeys ["a", "b"] [(.str "b", .int 1)] = .ok () := by decide +kernel
example : checkUnsupportedKeys ["a", "b"] [(.str "a", .int 1), (.str "b", .int 2)] = .ok () := by
    decide +kernel
example : checkUnsupportedKeys ["a", "b"] [] = .ok () := by decide +kernel
example : checkUnsupportedKeys ["a", "b"] [(.str "c", .int 1)] = .error (.lib .parser) := by
    decide +kernel
example : checkUnsupportedKeys ["a", "b"] [(.str "a", .int 1), (.str "c", .int 1)] = .error (.lib
    .parser) := by decide +kernel
example : checkUnsupportedKeys ["a", "b"] [(.str "a", .int 1), (.str "b", .int 1), (.str "c", .int
    1)] = .error (.lib .parser) := by decide +kernel

/-! `test__bytes_from_base64_success` (tests/test_parsers.py 80-85) -/

example : bytesFromBase64 "abcdef==" = .ok [105, 183, 29, 121] := by decide +kernel
example : bytesFromBase64 "IUAjJCVeJiooKS0r" = .ok [33, 64, 35, 36, 37, 94, 38, 42, 40, 41, 45, 43]
    := by decide +kernel

/-! `test__bytes_from_base64_error` (tests/test_parsers.py 88-94) -/

example : raises [.parser, .decoding] (bytesFromBase64 "abcdef=") = true := by decide +kernel

/-! `test_parse_public_key_credential_success` (tests/test_parsers.py 101-130) -/

example : parsePublicKeyCredential [(.str "id", .str "a"), (.str "rawId", .str "Yg=="), (.str
    "type", .str "c"), (.str "response", .dict [(.str "clientDataJSON", .str "ZQ=="), (.str
    "attestationObject", .str "Zg==")])] = .ok
    ({ id := "a", type := "c", rawId := [98], response := .attestation [101] [102] }) := by
    decide +kernel
example : parsePublicKeyCredential [(.str "id", .str "a"), (.str "rawId", .str "Yg=="), (.str
    "type", .str "c"), (.str "response", .dict [(.str "clientDataJSON", .str "ZQ=="), (.str
    "authenticatorData", .str "Zg=="), (.str "signature", .str "Zw=="), (.str "userHandle", .str
    "aA==")])] = .ok
    ({ id := "a", type := "c", rawId := [98], response := .assertion [101] [102] [103] (some [104]) })
    := by decide +kernel

/-! `test_parse_public_key_credential_error` (tests/test_parsers.py 133-216) -/

example : raises [.parser, .decoding] (parsePublicKeyCredential [(.str "id", .str "a"), (.str
    "rawId", .str "Yg=="), (.str "type", .str "c"), (.str "x", .int 1), (.str "response", .dict
    [(.str "clientDataJSON", .str "ZQ=="), (.str "attestationObject", .str "Zg==")])]) = true := by
    decide +kernel
example : raises [.parser, .decoding] (parsePublicKeyCredential [(.str "id", .str "a"), (.str
    "rawId", .str "Yg=="), (.str "type", .str "c"), (.str "response", .dict [(.str "x", .int 1),
    (.str "clientDataJSON", .str "ZQ=="), (.str "attestationObject", .str "Zg==")])]) = true := by
    decide +kernel
example : raises [.parser, .decoding] (parsePublicKeyCredential [(.str "id", .int 1), (.str "rawId",
    .str "Yg=="), (.str "type", .str "c"), (.str "x", .int 1), (.str "response", .dict [(.str
    "clientDataJSON", .str "ZQ=="), (.str "attestationObject", .str "Zg==")])]) = true := by
    decide +kernel
example : raises [.parser, .decoding] (parsePublicKeyCredential [(.str "id", .str "a"), (.str
    "rawId", .bytes [97]), (.str "type", .str "c"), (.str "response", .dict [(.str "clientDataJSON",
    .str "ZQ=="), (.str "attestationObject", .str "Zg==")])]) = true := by decide +kernel
example : raises [.parser, .decoding] (parsePublicKeyCredential [(.str "id", .str "a"), (.str
    "rawId", .str "Yg=="), (.str "type", .bytes [99]), (.str "response", .dict [(.str
    "clientDataJSON", .str "ZQ=="), (.str "attestationObject", .str "Zg==")])]) = true := by
    decide +kernel
example : raises [.parser, .decoding] (parsePublicKeyCredential [(.str "id", .str "a"), (.str
    "rawId", .str "Yg=="), (.str "type", .str "c"), (.str "response", .dict [(.str "clientDataJSON",
    .float ⟨0x3ff0000000000000⟩), (.str "attestationObject", .str "Zg==")])]) = true := by
    decide +kernel
example : raises [.parser, .decoding] (parsePublicKeyCredential [(.str "id", .str "a"), (.str
    "rawId", .str "Yg=="), (.str "type", .str "c"), (.str "response", .dict [(.str "clientDataJSON",
    .str "ZQ=="), (.str "attestationObject", .list [])])]) = true := by decide +kernel
example : raises [.parser, .decoding] (parsePublicKeyCredential [(.str "id", .str "a"), (.str
    "rawId", .str "Yg=="), (.str "type", .str "c"), (.str "y", .str "a"), (.str "response", .dict
    [(.str "clientDataJSON", .str "ZQ=="), (.str "authenticatorData", .str "Zg=="), (.str
    "signature", .str "Zw=="), (.str "userHandle", .str "aA==")])]) = true := by decide +kernel
example : raises [.parser, .decoding] (parsePublicKeyCredential [(.str "id", .str "a"), (.str
    "rawId", .str "Yg=="), (.str "type", .str "c"), (.str "response", .dict [(.str "y", .str "a"),
    (.str "clientDataJSON", .str "ZQ=="), (.str "authenticatorData", .str "Zg=="), (.str
    "signature", .str "Zw=="), (.str "userHandle", .str "aA==")])]) = true := by decide +kernel
example : raises [.parser, .decoding] (parsePublicKeyCredential [(.str "id", .str "a"), (.str
    "rawId", .str "Yg=="), (.str "type", .str "c"), (.str "response", .dict [(.str "clientDataJSON",
    .float ⟨0x3ff0000000000000⟩), (.str "authenticatorData", .str "Zg=="), (.str "signature", .str
    "Zw=="), (.str "userHandle", .str "aA==")])]) = true := by decide +kernel
example : raises [.parser, .decoding] (parsePublicKeyCredential [(.str "id", .str "a"), (.str
    "rawId", .str "Yg=="), (.str "type", .str "c"), (.str "response", .dict [(.str "clientDataJSON",
    .str "ZQ=="), (.str "authenticatorData", .int 2), (.str "signature", .str "Zw=="), (.str
    "userHandle", .str "aA==")])]) = true := by decide +kernel
example : raises [.parser, .decoding] (parsePublicKeyCredential [(.str "id", .str "a"), (.str
    "rawId", .str "Yg=="), (.str "type", .str "c"), (.str "response", .dict [(.str "clientDataJSON",
    .str "ZQ=="), (.str "authenticatorData", .str "Zg=="), (.str "signature", .bytes [51]), (.str
    "userHandle", .str "aA==")])]) = true := by decide +kernel
example : raises [.parser, .decoding] (parsePublicKeyCredential [(.str "id", .str "a"), (.str
    "rawId", .str "Yg=="), (.str "type", .str "c"), (.str "response", .dict [(.str "clientDataJSON",
    .str "ZQ=="), (.str "authenticatorData", .str "Zg=="), (.str "signature", .str "Zw=="), (.str
    "userHandle", .int 4)])]) = true := by decide +kernel

/-! `test__parse_credential_public_key_kty_success` (tests/test_parsers.py 219-223) -/

example : parseKty [(.int 1, .str "OKP")] = .ok (.name .OKP) := by decide +kernel
example : parseKty [(.int 1, .str "EC2")] = .ok (.name .EC2) := by decide +kernel
example : parseKty [(.int 1, .str "Symmetric")] = .ok (.name .SYMMETRIC) := by decide +kernel
example : parseKty [(.int 1, .int 1)] = .ok (.value .OKP) := by decide +kernel
example : parseKty [(.int 1, .int 2)] = .ok (.value .EC2) := by decide +kernel
example : parseKty [(.int 1, .int 4)] = .ok (.value .SYMMETRIC) := by decide +kernel

/-! `test__parse_credential_public_key_kty_error` (tests/test_parsers.py 226-239) -/

example : raises [.parser, .decoding] (parseKty [(.int 1, .int (-1))]) = true := by decide +kernel
example : raises [.parser, .decoding] (parseKty [(.int 1, .int (-2))]) = true := by decide +kernel
example : raises [.parser, .decoding] (parseKty [(.int 1, .str "_invalid")]) = true := by
    decide +kernel
example : raises [.parser, .decoding] (parseKty [(.int 1, .str "1")]) = true := by decide +kernel
example : raises [.parser, .decoding] (parseKty []) = true := by decide +kernel
example : raises [.parser, .decoding] (parseKty [(.int 2, .int 1)]) = true := by decide +kernel
example : raises [.parser, .decoding] (parseKty [(.int 2, .str "")]) = true := by decide +kernel

/-! `test__parse_credential_public_key_alg_success` (tests/test_parsers.py 242-247) -/

example : parseAlg [(.int 3, .str "ES256")] = .ok (.name .ES256) := by decide +kernel
example : parseAlg [(.int 3, .str "ES384")] = .ok (.name .ES384) := by decide +kernel
example : parseAlg [(.int 3, .str "ES512")] = .ok (.name .ES512) := by decide +kernel
example : parseAlg [(.int 3, .str "EdDSA")] = .ok (.name .EDDSA) := by decide +kernel
example : parseAlg [(.int 3, .int (-7))] = .ok (.value .ES256) := by decide +kernel
example : parseAlg [(.int 3, .int (-35))] = .ok (.value .ES384) := by decide +kernel
example : parseAlg [(.int 3, .int (-36))] = .ok (.value .ES512) := by decide +kernel
example : parseAlg [(.int 3, .int (-8))] = .ok (.value .EDDSA) := by decide +kernel

/-! `test__parse_credential_public_key_alg_error` (tests/test_parsers.py 250-263) -/

example : raises [.parser, .decoding] (parseAlg [(.int 3, .int (-1))]) = true := by decide +kernel
example : raises [.parser, .decoding] (parseAlg [(.int 3, .int (-2))]) = true := by decide +kernel
example : raises [.parser, .decoding] (parseAlg [(.int 3, .str "_invalid")]) = true := by
    decide +kernel
example : raises [.parser, .decoding] (parseAlg [(.int 3, .str "1")]) = true := by decide +kernel
example : raises [.parser, .decoding] (parseAlg []) = true := by decide +kernel
example : raises [.parser, .decoding] (parseAlg [(.int 2, .int 1)]) = true := by decide +kernel
example : raises [.parser, .decoding] (parseAlg [(.int 2, .str "")]) = true := by decide +kernel

/-! `test__parse_credential_public_key_key_ops_success` (tests/test_parsers.py 266-277) -/

example : parseKeyOps [(.int 4, .list [.str "sign", .str "verify", .str "encrypt", .str "decrypt",
    .str "wrap key", .str "unwrap key", .str "derive key", .str "derive bits", .str "MAC create",
    .str "MAC verify"])] = .ok (some [.name .SIGN, .name .VERIFY, .name .ENCRYPT, .name .DECRYPT,
    .name .WRAP_KEY, .name .UNWRAP_KEY, .name .DERIVE_KEY, .name .DERIVE_BITS, .name .MAC_CREATE,
    .name .MAC_VERIFY]) := by decide +kernel
example : parseKeyOps [(.int 4, .list [.int 1, .int 2, .int 3, .int 4, .int 5, .int 6, .int 7, .int
    8, .int 9, .int 10])] = .ok (some [.value .SIGN, .value .VERIFY, .value .ENCRYPT, .value
    .DECRYPT, .value .WRAP_KEY, .value .UNWRAP_KEY, .value .DERIVE_KEY, .value .DERIVE_BITS, .value
    .MAC_CREATE, .value .MAC_VERIFY]) := by decide +kernel
example : parseKeyOps [(.int 4, .list [.str "sign", .str "verify", .str "encrypt", .str "decrypt",
    .str "wrap key", .str "unwrap key", .str "derive key", .str "derive bits", .str "MAC create",
    .str "MAC verify", .int 1, .int 2, .int 3, .int 4, .int 5, .int 6, .int 7, .int 8, .int 9, .int
    10])] = .ok (some [.name .SIGN, .name .VERIFY, .name .ENCRYPT, .name .DECRYPT, .name .WRAP_KEY,
    .name .UNWRAP_KEY, .name .DERIVE_KEY, .name .DERIVE_BITS, .name .MAC_CREATE, .name .MAC_VERIFY,
    .value .SIGN, .value .VERIFY, .value .ENCRYPT, .value .DECRYPT, .value .WRAP_KEY, .value
    .UNWRAP_KEY, .value .DERIVE_KEY, .value .DERIVE_BITS, .value .MAC_CREATE, .value .MAC_VERIFY])
    := by decide +kernel
example : parseKeyOps [] = .ok none := by decide +kernel

/-! `test__parse_credential_public_key_key_ops_error` (tests/test_parsers.py 280-295) -/

example : raises [.parser, .decoding] (parseKeyOps [(.int 4, .int (-1))]) = true := by
    decide +kernel
example : raises [.parser, .decoding] (parseKeyOps [(.int 4, .int (-2))]) = true := by
    decide +kernel
example : raises [.parser, .decoding] (parseKeyOps [(.int 4, .str "_invalid")]) = true := by
    decide +kernel
example : raises [.parser, .decoding] (parseKeyOps [(.int 4, .str "1")]) = true := by decide +kernel
example : raises [.parser, .decoding] (parseKeyOps [(.int 4, .list [.str "x"])]) = true := by
    decide +kernel
example : raises [.parser, .decoding] (parseKeyOps [(.int 4, .list [.int (-1)])]) = true := by
    decide +kernel
example : raises [.parser, .decoding] (parseKeyOps [(.int 4, .list [.str "decrypt", .str "y"])]) =
    true := by decide +kernel
example : raises [.parser, .decoding] (parseKeyOps [(.int 4, .list [])]) = true := by decide +kernel

/-! `test__parse_credential_public_key_kwargs_success` (tests/test_parsers.py 298-333) -/

example : parseKeyKwargs [(.int 1, .str "EC2"), (.int 2, .bytes [107, 101, 121, 45, 105, 100]),
    (.int 3, .str "ES256"), (.int 4, .list [.str "verify", .str "sign"]), (.int 5, .bytes [98, 97,
    115, 101, 45, 73, 86])] = .ok
    ({ kty := .name .EC2, kid := some [107, 101, 121, 45, 105, 100], alg := some (.name .ES256), keyOps := some [.name .VERIFY, .name .SIGN], baseIV := some [98, 97, 115, 101, 45, 73, 86] })
    := by decide +kernel
example : parseKeyKwargs [(.int 1, .int 2), (.int 2, .bytes [107, 101, 121, 45, 105, 100]), (.int 3,
    .int (-7)), (.int 4, .list [.int 2, .int 1]), (.int 5, .bytes [98, 97, 115, 101, 45, 73, 86])] =
    .ok
    ({ kty := .value .EC2, kid := some [107, 101, 121, 45, 105, 100], alg := some (.value .ES256), keyOps := some [.value .VERIFY, .value .SIGN], baseIV := some [98, 97, 115, 101, 45, 73, 86] })
    := by decide +kernel

/-! `test__parse_credential_public_key_kwargs_error` (tests/test_parsers.py 336-386) -/

example : raises [.parser, .decoding] (parseKeyKwargs [(.int 1, .float ⟨0x3ff0000000000000⟩), (.int
    2, .bytes [107, 101, 121, 45, 105, 100]), (.int 3, .str "ES256"), (.int 4, .list [.str "verify",
    .str "sign"]), (.int 5, .bytes [98, 97, 115, 101, 45, 73, 86])]) = true := by decide +kernel
example : raises [.parser, .decoding] (parseKeyKwargs [(.int 1, .str "EC2"), (.int 2, .str
    "string"), (.int 3, .str "ES256"), (.int 4, .list [.str "verify", .str "sign"]), (.int 5, .bytes
    [98, 97, 115, 101, 45, 73, 86])]) = true := by decide +kernel
example : raises [.parser, .decoding] (parseKeyKwargs [(.int 1, .str "EC2"), (.int 2, .bytes [107,
    101, 121, 45, 105, 100]), (.int 3, .int (-1)), (.int 4, .list [.str "verify", .str "sign"]),
    (.int 5, .bytes [98, 97, 115, 101, 45, 73, 86])]) = true := by decide +kernel
example : raises [.parser, .decoding] (parseKeyKwargs [(.int 1, .str "EC2"), (.int 2, .bytes [107,
    101, 121, 45, 105, 100]), (.int 3, .str "ES256"), (.int 4, .list [.bytes [120], .str "verify",
    .str "sign"]), (.int 5, .bytes [98, 97, 115, 101, 45, 73, 86])]) = true := by decide +kernel
example : raises [.parser, .decoding] (parseKeyKwargs [(.int 1, .str "EC2"), (.int 2, .bytes [107,
    101, 121, 45, 105, 100]), (.int 3, .str "ES256"), (.int 4, .list [.str "verify", .str "sign"]),
    (.int 5, .str "string")]) = true := by decide +kernel

/-! `test__parse_ec2_public_key_crv_success` (tests/test_parsers.py 389-393) -/

example : parseEc2Crv [(.int (-1), .str "P-256")] = .ok (.name .P_256) := by decide +kernel
example : parseEc2Crv [(.int (-1), .str "P-384")] = .ok (.name .P_384) := by decide +kernel
example : parseEc2Crv [(.int (-1), .str "P-521")] = .ok (.name .P_521) := by decide +kernel
example : parseEc2Crv [(.int (-1), .int 1)] = .ok (.value .P_256) := by decide +kernel
example : parseEc2Crv [(.int (-1), .int 2)] = .ok (.value .P_384) := by decide +kernel
example : parseEc2Crv [(.int (-1), .int 3)] = .ok (.value .P_521) := by decide +kernel

/-! `test__parse_ec2_public_key_crv_error` (tests/test_parsers.py 396-416) -/

example : raises [.parser, .decoding] (parseEc2Crv [(.int (-1), .bytes [])]) = true := by
    decide +kernel
example : raises [.parser, .decoding] (parseEc2Crv [(.int (-1), .float ⟨0x3ff0000000000000⟩)]) =
    true := by decide +kernel
example : raises [.parser, .decoding] (parseEc2Crv [(.int (-1), .str "x")]) = true := by
    decide +kernel
example : raises [.parser, .decoding] (parseEc2Crv [(.int (-1), .int (-1))]) = true := by
    decide +kernel
example : raises [.parser, .decoding] (parseEc2Crv []) = true := by decide +kernel
example : raises [.parser, .decoding] (parseEc2Crv [(.int 2, .int 1)]) = true := by decide +kernel

/-! `test__parse_okp_public_key_crv_success` (tests/test_parsers.py 419-423) -/

example : parseOkpCrv [(.int (-1), .str "Ed25519")] = .ok (.name .ED25519) := by decide +kernel
example : parseOkpCrv [(.int (-1), .str "Ed448")] = .ok (.name .ED448) := by decide +kernel
example : parseOkpCrv [(.int (-1), .int 6)] = .ok (.value .ED25519) := by decide +kernel
example : parseOkpCrv [(.int (-1), .int 7)] = .ok (.value .ED448) := by decide +kernel

/-! `test__parse_okp_public_key_crv_error` (tests/test_parsers.py 426-446) -/

example : raises [.parser, .decoding] (parseOkpCrv [(.int (-1), .bytes [])]) = true := by
    decide +kernel
example : raises [.parser, .decoding] (parseOkpCrv [(.int (-1), .float ⟨0x3ff0000000000000⟩)]) =
    true := by decide +kernel
example : raises [.parser, .decoding] (parseOkpCrv [(.int (-1), .str "x")]) = true := by
    decide +kernel
example : raises [.parser, .decoding] (parseOkpCrv [(.int (-1), .int (-1))]) = true := by
    decide +kernel
example : raises [.parser, .decoding] (parseOkpCrv []) = true := by decide +kernel
example : raises [.parser, .decoding] (parseOkpCrv [(.int 2, .int 1)]) = true := by decide +kernel

/-! `test_parse_okp_public_key_success` (tests/test_parsers.py 449-533) -/

example : parseOkpPublicKey [(.int (-2), .bytes (List.replicate 32 120)), (.int (-1), .int 6), (.int
    1, .int 1), (.int 2, .bytes [107, 105, 100]), (.int 3, .int (-8)), (.int 4, .list [.int 1, .int
    2]), (.int 5, .bytes [98, 97, 115, 101, 45, 73, 86])] = .ok (.okp
    { kty := .value .OKP, kid := some [107, 105, 100], alg := some (.value .EDDSA), keyOps := some [.value .SIGN, .value .VERIFY], baseIV := some [98, 97, 115, 101, 45, 73, 86] }
    (.value .ED25519) (List.replicate 32 120)) := by decide +kernel
example : parseOkpPublicKey [(.int (-2), .bytes (List.replicate 57 120)), (.int (-1), .int 7), (.int
    1, .int 1), (.int 2, .bytes [107, 105, 100]), (.int 3, .int (-8)), (.int 4, .list [.int 1, .int
    2]), (.int 5, .bytes [98, 97, 115, 101, 45, 73, 86])] = .ok (.okp
    { kty := .value .OKP, kid := some [107, 105, 100], alg := some (.value .EDDSA), keyOps := some [.value .SIGN, .value .VERIFY], baseIV := some [98, 97, 115, 101, 45, 73, 86] }
    (.value .ED448) (List.replicate 57 120)) := by decide +kernel
example : parseOkpPublicKey [(.int (-2), .bytes (List.replicate 57 120)), (.int (-1), .int 7), (.int
    1, .int 1), (.int 2, .bytes [107, 105, 100]), (.int 3, .int (-8)), (.int 4, .list [.int 1, .int
    2]), (.int 5, .bytes [98, 97, 115, 101, 45, 73, 86])] = .ok (.okp
    { kty := .value .OKP, kid := some [107, 105, 100], alg := some (.value .EDDSA), keyOps := some [.value .SIGN, .value .VERIFY], baseIV := some [98, 97, 115, 101, 45, 73, 86] }
    (.value .ED448) (List.replicate 57 120)) := by decide +kernel

/-! `test_parse_okp_public_key_error` (tests/test_parsers.py 536-651) -/

example : raises [.parser, .decoding] (parseOkpPublicKey [(.int (-2), .str
    "xxxxxxxxxxxxxxxxxxxxxxxxxxxxxxxxxxxxxxxxxxxxxxxxxxxxxxxxx"), (.int (-1), .int 7), (.int 1, .int
    1), (.int 2, .bytes [107, 105, 100]), (.int 3, .int (-8)), (.int 4, .list [.int 1, .int 2]),
    (.int 5, .bytes [98, 97, 115, 101, 45, 73, 86])]) = true := by decide +kernel
example : raises [.parser, .decoding] (parseOkpPublicKey [(.int (-2), .bytes (List.replicate 57
    120)), (.int (-1), .int 7), (.int 1, .int 1), (.int 2, .str "kid"), (.int 3, .int (-8)), (.int
    4, .list [.int 1, .int 2]), (.int 5, .bytes [98, 97, 115, 101, 45, 73, 86])]) = true := by
    decide +kernel
example : raises [.parser, .decoding] (parseOkpPublicKey [(.int (-2), .bytes (List.replicate 57
    120)), (.int (-1), .int 7), (.int 1, .int 1), (.int 2, .bytes [107, 105, 100]), (.int 3, .int
    (-8)), (.int 4, .list [.int 1, .int 2]), (.int 5, .str "base-IV")]) = true := by decide +kernel
example : raises [.parser, .decoding] (parseOkpPublicKey [(.int (-2), .bytes (List.replicate 57
    120)), (.int (-1), .str "invalid"), (.int 1, .int 1), (.int 2, .bytes [107, 105, 100]), (.int 3,
    .int (-8)), (.int 4, .list [.int 1, .int 2]), (.int 5, .bytes [98, 97, 115, 101, 45, 73, 86])])
    = true := by decide +kernel
example : raises [.parser, .decoding] (parseOkpPublicKey [(.int (-2), .bytes (List.replicate 57
    120)), (.int (-1), .int 7), (.int 1, .int (-1)), (.int 2, .bytes [107, 105, 100]), (.int 3, .int
    (-8)), (.int 4, .list [.int 1, .int 2]), (.int 5, .bytes [98, 97, 115, 101, 45, 73, 86])]) =
    true := by decide +kernel
example : raises [.parser, .decoding] (parseOkpPublicKey [(.int (-2), .bytes (List.replicate 57
    120)), (.int (-1), .int 7), (.int 1, .int 1), (.int 2, .bytes [107, 105, 100]), (.int 3, .str
    "invalid"), (.int 4, .list [.int 1, .int 2]), (.int 5, .bytes [98, 97, 115, 101, 45, 73, 86])])
    = true := by decide +kernel
example : raises [.parser, .decoding] (parseOkpPublicKey [(.int (-2), .bytes (List.replicate 57
    120)), (.int (-1), .int 7), (.int 1, .int 1), (.int 2, .bytes [107, 105, 100]), (.int 3, .int
    (-8)), (.int 4, .list [.int (-3)]), (.int 5, .bytes [98, 97, 115, 101, 45, 73, 86])]) = true :=
    by decide +kernel
example : raises [.parser, .decoding] (parseOkpPublicKey [(.int (-3), .bytes (List.replicate 32
    121)), (.int (-2), .bytes (List.replicate 32 120)), (.int (-1), .int 1), (.int 1, .int 2), (.int
    2, .bytes [107, 105, 100]), (.int 3, .int (-7)), (.int 4, .list [.int 1, .int 2]), (.int 5,
    .bytes [98, 97, 115, 101, 45, 73, 86])]) = true := by decide +kernel
example : raises [.parser, .decoding] (parseOkpPublicKey [(.int (-3), .bytes (List.replicate 48
    121)), (.int (-2), .bytes (List.replicate 48 120)), (.int (-1), .int 2), (.int 1, .int 2), (.int
    2, .bytes [107, 105, 100]), (.int 3, .int (-35)), (.int 4, .list [.int 1, .int 2]), (.int 5,
    .bytes [98, 97, 115, 101, 45, 73, 86])]) = true := by decide +kernel
example : raises [.parser, .decoding] (parseOkpPublicKey [(.int (-3), .bytes (List.replicate 66
    121)), (.int (-2), .bytes (List.replicate 66 120)), (.int (-1), .int 3), (.int 1, .int 2), (.int
    2, .bytes [107, 105, 100]), (.int 3, .int (-36)), (.int 4, .list [.int 1, .int 2]), (.int 5,
    .bytes [98, 97, 115, 101, 45, 73, 86])]) = true := by decide +kernel

/-! `test_parse_ec2_public_key_success` (tests/test_parsers.py 654-747) -/

example : parseEc2PublicKey [(.int (-3), .bytes (List.replicate 32 121)), (.int (-2), .bytes
    (List.replicate 32 120)), (.int (-1), .int 1), (.int 1, .int 2), (.int 2, .bytes [107, 105,
    100]), (.int 3, .int (-7)), (.int 4, .list [.int 1, .int 2]), (.int 5, .bytes [98, 97, 115, 101,
    45, 73, 86])] = .ok (.ec2
    { kty := .value .EC2, kid := some [107, 105, 100], alg := some (.value .ES256), keyOps := some [.value .SIGN, .value .VERIFY], baseIV := some [98, 97, 115, 101, 45, 73, 86] }
    (List.replicate 32 120) (List.replicate 32 121) (.value .P_256)) := by decide +kernel
example : parseEc2PublicKey [(.int (-3), .bytes (List.replicate 48 121)), (.int (-2), .bytes
    (List.replicate 48 120)), (.int (-1), .int 2), (.int 1, .int 2), (.int 2, .bytes [107, 105,
    100]), (.int 3, .int (-35)), (.int 4, .list [.int 1, .int 2]), (.int 5, .bytes [98, 97, 115,
    101, 45, 73, 86])] = .ok (.ec2
    { kty := .value .EC2, kid := some [107, 105, 100], alg := some (.value .ES384), keyOps := some [.value .SIGN, .value .VERIFY], baseIV := some [98, 97, 115, 101, 45, 73, 86] }
    (List.replicate 48 120) (List.replicate 48 121) (.value .P_384)) := by decide +kernel
example : parseEc2PublicKey [(.int (-3), .bytes (List.replicate 66 121)), (.int (-2), .bytes
    (List.replicate 66 120)), (.int (-1), .int 3), (.int 1, .int 2), (.int 2, .bytes [107, 105,
    100]), (.int 3, .int (-36)), (.int 4, .list [.int 1, .int 2]), (.int 5, .bytes [98, 97, 115,
    101, 45, 73, 86])] = .ok (.ec2
    { kty := .value .EC2, kid := some [107, 105, 100], alg := some (.value .ES512), keyOps := some [.value .SIGN, .value .VERIFY], baseIV := some [98, 97, 115, 101, 45, 73, 86] }
    (List.replicate 66 120) (List.replicate 66 121) (.value .P_521)) := by decide +kernel

/-! `test_parse_ec2_public_key_error` (tests/test_parsers.py 750-932) -/

example : raises [.parser, .decoding] (parseEc2PublicKey [(.int (-2), .str
    "xxxxxxxxxxxxxxxxxxxxxxxxxxxxxxxxxxxxxxxxxxxxxxxxxxxxxxxxx"), (.int (-1), .int 7), (.int 1, .int
    1), (.int 2, .bytes [107, 105, 100]), (.int 3, .int (-8)), (.int 4, .list [.int 1, .int 2]),
    (.int 5, .bytes [98, 97, 115, 101, 45, 73, 86])]) = true := by decide +kernel
example : raises [.parser, .decoding] (parseEc2PublicKey [(.int (-2), .bytes (List.replicate 57
    120)), (.int (-1), .int 7), (.int 1, .int 1), (.int 2, .str "kid"), (.int 3, .int (-8)), (.int
    4, .list [.int 1, .int 2]), (.int 5, .bytes [98, 97, 115, 101, 45, 73, 86])]) = true := by
    decide +kernel
example : raises [.parser, .decoding] (parseEc2PublicKey [(.int (-2), .bytes (List.replicate 57
    120)), (.int (-1), .int 7), (.int 1, .int 1), (.int 2, .bytes [107, 105, 100]), (.int 3, .int
    (-8)), (.int 4, .list [.int 1, .int 2]), (.int 5, .str "base-IV")]) = true := by decide +kernel
example : raises [.parser, .decoding] (parseEc2PublicKey [(.int (-2), .bytes (List.replicate 57
    120)), (.int (-1), .str "invalid"), (.int 1, .int 1), (.int 2, .bytes [107, 105, 100]), (.int 3,
    .int (-8)), (.int 4, .list [.int 1, .int 2]), (.int 5, .bytes [98, 97, 115, 101, 45, 73, 86])])
    = true := by decide +kernel
example : raises [.parser, .decoding] (parseEc2PublicKey [(.int (-2), .bytes (List.replicate 57
    120)), (.int (-1), .int 7), (.int 1, .int (-1)), (.int 2, .bytes [107, 105, 100]), (.int 3, .int
    (-8)), (.int 4, .list [.int 1, .int 2]), (.int 5, .bytes [98, 97, 115, 101, 45, 73, 86])]) =
    true := by decide +kernel
example : raises [.parser, .decoding] (parseEc2PublicKey [(.int (-2), .bytes (List.replicate 57
    120)), (.int (-1), .int 7), (.int 1, .int 1), (.int 2, .bytes [107, 105, 100]), (.int 3, .str
    "invalid"), (.int 4, .list [.int 1, .int 2]), (.int 5, .bytes [98, 97, 115, 101, 45, 73, 86])])
    = true := by decide +kernel
example : raises [.parser, .decoding] (parseEc2PublicKey [(.int (-2), .bytes (List.replicate 57
    120)), (.int (-1), .int 7), (.int 1, .int 1), (.int 2, .bytes [107, 105, 100]), (.int 3, .int
    (-8)), (.int 4, .list [.int (-3)]), (.int 5, .bytes [98, 97, 115, 101, 45, 73, 86])]) = true :=
    by decide +kernel
example : raises [.parser, .decoding] (parseEc2PublicKey [(.int (-3), .str
    "yyyyyyyyyyyyyyyyyyyyyyyyyyyyyyyy"), (.int (-2), .bytes (List.replicate 32 120)), (.int (-1),
    .int 1), (.int 1, .int 2), (.int 2, .bytes [107, 105, 100]), (.int 3, .int (-7)), (.int 4, .list
    [.int 1, .int 2]), (.int 5, .bytes [98, 97, 115, 101, 45, 73, 86])]) = true := by decide +kernel
example : raises [.parser, .decoding] (parseEc2PublicKey [(.int (-3), .bytes (List.replicate 48
    121)), (.int (-2), .str "xxxxxxxxxxxxxxxxxxxxxxxxxxxxxxxxxxxxxxxxxxxxxxxx"), (.int (-1), .int
    2), (.int 1, .int 2), (.int 2, .bytes [107, 105, 100]), (.int 3, .int (-35)), (.int 4, .list
    [.int 1, .int 2]), (.int 5, .bytes [98, 97, 115, 101, 45, 73, 86])]) = true := by decide +kernel
example : raises [.parser, .decoding] (parseEc2PublicKey [(.int (-3), .bytes (List.replicate 66
    121)), (.int (-2), .bytes (List.replicate 66 120)), (.int (-1), .str "invalid"), (.int 1, .int
    2), (.int 2, .bytes [107, 105, 100]), (.int 3, .int (-36)), (.int 4, .list [.int 1, .int 2]),
    (.int 5, .bytes [98, 97, 115, 101, 45, 73, 86])]) = true := by decide +kernel
example : raises [.parser, .decoding] (parseEc2PublicKey [(.int (-3), .bytes (List.replicate 66
    121)), (.int (-2), .bytes (List.replicate 66 120)), (.int (-1), .int 3), (.int 1, .int (-3)),
    (.int 2, .bytes [107, 105, 100]), (.int 3, .int (-36)), (.int 4, .list [.int 1, .int 2]), (.int
    5, .bytes [98, 97, 115, 101, 45, 73, 86])]) = true := by decide +kernel
example : raises [.parser, .decoding] (parseEc2PublicKey [(.int (-3), .bytes (List.replicate 66
    121)), (.int (-2), .bytes (List.replicate 66 120)), (.int (-1), .int 3), (.int 1, .int 2), (.int
    2, .str "kid"), (.int 3, .int (-36)), (.int 4, .list [.int 1, .int 2]), (.int 5, .bytes [98, 97,
    115, 101, 45, 73, 86])]) = true := by decide +kernel
example : raises [.parser, .decoding] (parseEc2PublicKey [(.int (-3), .bytes (List.replicate 66
    121)), (.int (-2), .bytes (List.replicate 66 120)), (.int (-1), .int 3), (.int 1, .int 2), (.int
    2, .bytes [107, 105, 100]), (.int 3, .str "invalid"), (.int 4, .list [.int 1, .int 2]), (.int 5,
    .bytes [98, 97, 115, 101, 45, 73, 86])]) = true := by decide +kernel
example : raises [.parser, .decoding] (parseEc2PublicKey [(.int (-3), .bytes (List.replicate 66
    121)), (.int (-2), .bytes (List.replicate 66 120)), (.int (-1), .int 3), (.int 1, .int 2), (.int
    2, .bytes [107, 105, 100]), (.int 3, .int (-36)), (.int 4, .list [.bytes [120], .int 1, .int
    2]), (.int 5, .bytes [98, 97, 115, 101, 45, 73, 86])]) = true := by decide +kernel
example : raises [.parser, .decoding] (parseEc2PublicKey [(.int (-3), .bytes (List.replicate 66
    121)), (.int (-2), .bytes (List.replicate 66 120)), (.int (-1), .int 3), (.int 1, .int 2), (.int
    2, .bytes [107, 105, 100]), (.int 3, .int (-36)), (.int 4, .list [.int 1, .int 2]), (.int 5,
    .str "base-IV")]) = true := by decide +kernel

/-! `test_parse_extensions_success` (tests/test_parsers.py 935-976) -/

example : parseExtensions [] = .ok ({  }) := by decide +kernel
example : parseExtensions [(.str "appid", .bool true), (.str "txAuthSimple", .str "auth"), (.str
    "txAuthGeneric", .bytes [97, 117, 116, 104])] = .ok
    ({ appid := some true, txAuthSimple := some "auth", txAuthGeneric := some [97, 117, 116, 104] })
    := by decide +kernel
example : parseExtensions [(.str "appid", .bool true), (.str "txAuthSimple", .str "auth"), (.str
    "authnSel", .bool true)] = .ok
    ({ appid := some true, txAuthSimple := some "auth", authnSel := some true }) := by
    decide +kernel
example : parseExtensions [(.str "appid", .bool true), (.str "txAuthSimple", .str "auth"), (.str
    "exts", .list [.str "appid", .str "uvi"])] = .ok
    ({ appid := some true, txAuthSimple := some "auth", exts := some ["appid", "uvi"] }) := by
    decide +kernel
example : parseExtensions [(.str "appid", .bool true), (.str "txAuthSimple", .str "auth"), (.str
    "uvi", .bytes [117, 118, 105])] = .ok
    ({ appid := some true, txAuthSimple := some "auth", uvi := some [117, 118, 105] }) := by
    decide +kernel
example : parseExtensions [(.str "appid", .bool true), (.str "txAuthSimple", .str "auth"), (.str
    "loc", .dict [(.str "latitude", .int 1), (.str "longitude", .int 2), (.str "altitude", .int 3),
    (.str "accuracy", .float ⟨0x4010000000000000⟩), (.str "altitudeAccuracy", .float
    ⟨0x4014000000000000⟩), (.str "heading", .float ⟨0x4018000000000000⟩), (.str "speed", .float
    ⟨0x401c000000000000⟩)])] = .ok
    ({ appid := some true, txAuthSimple := some "auth", loc := some ({ latitude := some (.int 1), longitude := some (.int 2), altitude := some (.int 3), accuracy := some (.float ⟨0x4010000000000000⟩), altitudeAccuracy := some (.float ⟨0x4014000000000000⟩), heading := some (.float ⟨0x4018000000000000⟩), speed := some (.float ⟨0x401c000000000000⟩) }) })
    := by decide +kernel
example : parseExtensions [(.str "appid", .bool true), (.str "txAuthSimple", .str "auth"), (.str
    "uvm", .list [.list [.int 1, .int 2, .int 3], .list [.int 4, .int 5, .int 6]])] = .ok
    ({ appid := some true, txAuthSimple := some "auth", uvm := some [[1, 2, 3], [4, 5, 6]] }) := by
    decide +kernel
example : parseExtensions [(.str "appid", .bool true), (.str "txAuthSimple", .str "auth"), (.str
    "biometricPerfBounds", .bool true)] = .ok
    ({ appid := some true, txAuthSimple := some "auth", biometricPerfBounds := some true }) := by
    decide +kernel
example : parseExtensions [(.str "appid", .bool true), (.str "txAuthGeneric", .bytes [97, 117, 116,
    104]), (.str "authnSel", .bool true)] = .ok
    ({ appid := some true, txAuthGeneric := some [97, 117, 116, 104], authnSel := some true }) := by
    decide +kernel
example : parseExtensions [(.str "appid", .bool true), (.str "txAuthGeneric", .bytes [97, 117, 116,
    104]), (.str "exts", .list [.str "appid", .str "uvi"])] = .ok
    ({ appid := some true, txAuthGeneric := some [97, 117, 116, 104], exts := some ["appid", "uvi"] })
    := by decide +kernel
example : parseExtensions [(.str "appid", .bool true), (.str "txAuthGeneric", .bytes [97, 117, 116,
    104]), (.str "uvi", .bytes [117, 118, 105])] = .ok
    ({ appid := some true, txAuthGeneric := some [97, 117, 116, 104], uvi := some [117, 118, 105] })
    := by decide +kernel
example : parseExtensions [(.str "appid", .bool true), (.str "txAuthGeneric", .bytes [97, 117, 116,
    104]), (.str "loc", .dict [(.str "latitude", .int 1), (.str "longitude", .int 2), (.str
    "altitude", .int 3), (.str "accuracy", .float ⟨0x4010000000000000⟩), (.str "altitudeAccuracy",
    .float ⟨0x4014000000000000⟩), (.str "heading", .float ⟨0x4018000000000000⟩), (.str "speed",
    .float ⟨0x401c000000000000⟩)])] = .ok
    ({ appid := some true, txAuthGeneric := some [97, 117, 116, 104], loc := some ({ latitude := some (.int 1), longitude := some (.int 2), altitude := some (.int 3), accuracy := some (.float ⟨0x4010000000000000⟩), altitudeAccuracy := some (.float ⟨0x4014000000000000⟩), heading := some (.float ⟨0x4018000000000000⟩), speed := some (.float ⟨0x401c000000000000⟩) }) })
    := by decide +kernel
example : parseExtensions [(.str "appid", .bool true), (.str "txAuthGeneric", .bytes [97, 117, 116,
    104]), (.str "uvm", .list [.list [.int 1, .int 2, .int 3], .list [.int 4, .int 5, .int 6]])] =
    .ok
    ({ appid := some true, txAuthGeneric := some [97, 117, 116, 104], uvm := some [[1, 2, 3], [4, 5, 6]] })
    := by decide +kernel
example : parseExtensions [(.str "appid", .bool true), (.str "txAuthGeneric", .bytes [97, 117, 116,
    104]), (.str "biometricPerfBounds", .bool true)] = .ok
    ({ appid := some true, txAuthGeneric := some [97, 117, 116, 104], biometricPerfBounds := some true })
    := by decide +kernel
example : parseExtensions [(.str "appid", .bool true), (.str "authnSel", .bool true), (.str "exts",
    .list [.str "appid", .str "uvi"])] = .ok
    ({ appid := some true, authnSel := some true, exts := some ["appid", "uvi"] }) := by
    decide +kernel
example : parseExtensions [(.str "appid", .bool true), (.str "authnSel", .bool true), (.str "uvi",
    .bytes [117, 118, 105])] = .ok
    ({ appid := some true, authnSel := some true, uvi := some [117, 118, 105] }) := by
    decide +kernel
example : parseExtensions [(.str "appid", .bool true), (.str "authnSel", .bool true), (.str "loc",
    .dict [(.str "latitude", .int 1), (.str "longitude", .int 2), (.str "altitude", .int 3), (.str
    "accuracy", .float ⟨0x4010000000000000⟩), (.str "altitudeAccuracy", .float
    ⟨0x4014000000000000⟩), (.str "heading", .float ⟨0x4018000000000000⟩), (.str "speed", .float
    ⟨0x401c000000000000⟩)])] = .ok
    ({ appid := some true, authnSel := some true, loc := some ({ latitude := some (.int 1), longitude := some (.int 2), altitude := some (.int 3), accuracy := some (.float ⟨0x4010000000000000⟩), altitudeAccuracy := some (.float ⟨0x4014000000000000⟩), heading := some (.float ⟨0x4018000000000000⟩), speed := some (.float ⟨0x401c000000000000⟩) }) })
    := by decide +kernel
example : parseExtensions [(.str "appid", .bool true), (.str "authnSel", .bool true), (.str "uvm",
    .list [.list [.int 1, .int 2, .int 3], .list [.int 4, .int 5, .int 6]])] = .ok
    ({ appid := some true, authnSel := some true, uvm := some [[1, 2, 3], [4, 5, 6]] }) := by
    decide +kernel
example : parseExtensions [(.str "appid", .bool true), (.str "authnSel", .bool true), (.str
    "biometricPerfBounds", .bool true)] = .ok
    ({ appid := some true, authnSel := some true, biometricPerfBounds := some true }) := by
    decide +kernel
example : parseExtensions [(.str "appid", .bool true), (.str "exts", .list [.str "appid", .str
    "uvi"]), (.str "uvi", .bytes [117, 118, 105])] = .ok
    ({ appid := some true, exts := some ["appid", "uvi"], uvi := some [117, 118, 105] }) := by
    decide +kernel
example : parseExtensions [(.str "appid", .bool true), (.str "exts", .list [.str "appid", .str
    "uvi"]), (.str "loc", .dict [(.str "latitude", .int 1), (.str "longitude", .int 2), (.str
    "altitude", .int 3), (.str "accuracy", .float ⟨0x4010000000000000⟩), (.str "altitudeAccuracy",
    .float ⟨0x4014000000000000⟩), (.str "heading", .float ⟨0x4018000000000000⟩), (.str "speed",
    .float ⟨0x401c000000000000⟩)])] = .ok
    ({ appid := some true, exts := some ["appid", "uvi"], loc := some ({ latitude := some (.int 1), longitude := some (.int 2), altitude := some (.int 3), accuracy := some (.float ⟨0x4010000000000000⟩), altitudeAccuracy := some (.float ⟨0x4014000000000000⟩), heading := some (.float ⟨0x4018000000000000⟩), speed := some (.float ⟨0x401c000000000000⟩) }) })
    := by decide +kernel
example : parseExtensions [(.str "appid", .bool true), (.str "exts", .list [.str "appid", .str
    "uvi"]), (.str "uvm", .list [.list [.int 1, .int 2, .int 3], .list [.int 4, .int 5, .int 6]])] =
    .ok ({ appid := some true, exts := some ["appid", "uvi"], uvm := some [[1, 2, 3], [4, 5, 6]] })
    := by decide +kernel
example : parseExtensions [(.str "appid", .bool true), (.str "exts", .list [.str "appid", .str
    "uvi"]), (.str "biometricPerfBounds", .bool true)] = .ok
    ({ appid := some true, exts := some ["appid", "uvi"], biometricPerfBounds := some true }) := by
    decide +kernel
example : parseExtensions [(.str "appid", .bool true), (.str "uvi", .bytes [117, 118, 105]), (.str
    "loc", .dict [(.str "latitude", .int 1), (.str "longitude", .int 2), (.str "altitude", .int 3),
    (.str "accuracy", .float ⟨0x4010000000000000⟩), (.str "altitudeAccuracy", .float
    ⟨0x4014000000000000⟩), (.str "heading", .float ⟨0x4018000000000000⟩), (.str "speed", .float
    ⟨0x401c000000000000⟩)])] = .ok
    ({ appid := some true, uvi := some [117, 118, 105], loc := some ({ latitude := some (.int 1), longitude := some (.int 2), altitude := some (.int 3), accuracy := some (.float ⟨0x4010000000000000⟩), altitudeAccuracy := some (.float ⟨0x4014000000000000⟩), heading := some (.float ⟨0x4018000000000000⟩), speed := some (.float ⟨0x401c000000000000⟩) }) })
    := by decide +kernel
example : parseExtensions [(.str "appid", .bool true), (.str "uvi", .bytes [117, 118, 105]), (.str
    "uvm", .list [.list [.int 1, .int 2, .int 3], .list [.int 4, .int 5, .int 6]])] = .ok
    ({ appid := some true, uvi := some [117, 118, 105], uvm := some [[1, 2, 3], [4, 5, 6]] }) := by
    decide +kernel
example : parseExtensions [(.str "appid", .bool true), (.str "uvi", .bytes [117, 118, 105]), (.str
    "biometricPerfBounds", .bool true)] = .ok
    ({ appid := some true, uvi := some [117, 118, 105], biometricPerfBounds := some true }) := by
    decide +kernel
example : parseExtensions [(.str "appid", .bool true), (.str "loc", .dict [(.str "latitude", .int
    1), (.str "longitude", .int 2), (.str "altitude", .int 3), (.str "accuracy", .float
    ⟨0x4010000000000000⟩), (.str "altitudeAccuracy", .float ⟨0x4014000000000000⟩), (.str "heading",
    .float ⟨0x4018000000000000⟩), (.str "speed", .float ⟨0x401c000000000000⟩)]), (.str "uvm", .list
    [.list [.int 1, .int 2, .int 3], .list [.int 4, .int 5, .int 6]])] = .ok
    ({ appid := some true, loc := some ({ latitude := some (.int 1), longitude := some (.int 2), altitude := some (.int 3), accuracy := some (.float ⟨0x4010000000000000⟩), altitudeAccuracy := some (.float ⟨0x4014000000000000⟩), heading := some (.float ⟨0x4018000000000000⟩), speed := some (.float ⟨0x401c000000000000⟩) }), uvm := some [[1, 2, 3], [4, 5, 6]] })
    := by decide +kernel
example : parseExtensions [(.str "appid", .bool true), (.str "loc", .dict [(.str "latitude", .int
    1), (.str "longitude", .int 2), (.str "altitude", .int 3), (.str "accuracy", .float
    ⟨0x4010000000000000⟩), (.str "altitudeAccuracy", .float ⟨0x4014000000000000⟩), (.str "heading",
    .float ⟨0x4018000000000000⟩), (.str "speed", .float ⟨0x401c000000000000⟩)]), (.str
    "biometricPerfBounds", .bool true)] = .ok
    ({ appid := some true, loc := some ({ latitude := some (.int 1), longitude := some (.int 2), altitude := some (.int 3), accuracy := some (.float ⟨0x4010000000000000⟩), altitudeAccuracy := some (.float ⟨0x4014000000000000⟩), heading := some (.float ⟨0x4018000000000000⟩), speed := some (.float ⟨0x401c000000000000⟩) }), biometricPerfBounds := some true })
    := by decide +kernel
example : parseExtensions [(.str "appid", .bool true), (.str "uvm", .list [.list [.int 1, .int 2,
    .int 3], .list [.int 4, .int 5, .int 6]]), (.str "biometricPerfBounds", .bool true)] = .ok
    ({ appid := some true, uvm := some [[1, 2, 3], [4, 5, 6]], biometricPerfBounds := some true })
    := by decide +kernel
example : parseExtensions [(.str "txAuthSimple", .str "auth"), (.str "txAuthGeneric", .bytes [97,
    117, 116, 104]), (.str "authnSel", .bool true)] = .ok
    ({ txAuthSimple := some "auth", txAuthGeneric := some [97, 117, 116, 104], authnSel := some true })
    := by decide +kernel
example : parseExtensions [(.str "txAuthSimple", .str "auth"), (.str "txAuthGeneric", .bytes [97,
    117, 116, 104]), (.str "exts", .list [.str "appid", .str "uvi"])] = .ok
    ({ txAuthSimple := some "auth", txAuthGeneric := some [97, 117, 116, 104], exts := some ["appid", "uvi"] })
    := by decide +kernel
example : parseExtensions [(.str "txAuthSimple", .str "auth"), (.str "txAuthGeneric", .bytes [97,
    117, 116, 104]), (.str "uvi", .bytes [117, 118, 105])] = .ok
    ({ txAuthSimple := some "auth", txAuthGeneric := some [97, 117, 116, 104], uvi := some [117, 118, 105] })
    := by decide +kernel
example : parseExtensions [(.str "txAuthSimple", .str "auth"), (.str "txAuthGeneric", .bytes [97,
    117, 116, 104]), (.str "loc", .dict [(.str "latitude", .int 1), (.str "longitude", .int 2),
    (.str "altitude", .int 3), (.str "accuracy", .float ⟨0x4010000000000000⟩), (.str
    "altitudeAccuracy", .float ⟨0x4014000000000000⟩), (.str "heading", .float ⟨0x4018000000000000⟩),
    (.str "speed", .float ⟨0x401c000000000000⟩)])] = .ok
    ({ txAuthSimple := some "auth", txAuthGeneric := some [97, 117, 116, 104], loc := some ({ latitude := some (.int 1), longitude := some (.int 2), altitude := some (.int 3), accuracy := some (.float ⟨0x4010000000000000⟩), altitudeAccuracy := some (.float ⟨0x4014000000000000⟩), heading := some (.float ⟨0x4018000000000000⟩), speed := some (.float ⟨0x401c000000000000⟩) }) })
    := by decide +kernel
example : parseExtensions [(.str "txAuthSimple", .str "auth"), (.str "txAuthGeneric", .bytes [97,
    117, 116, 104]), (.str "uvm", .list [.list [.int 1, .int 2, .int 3], .list [.int 4, .int 5, .int
    6]])] = .ok
    ({ txAuthSimple := some "auth", txAuthGeneric := some [97, 117, 116, 104], uvm := some [[1, 2, 3], [4, 5, 6]] })
    := by decide +kernel
example : parseExtensions [(.str "txAuthSimple", .str "auth"), (.str "txAuthGeneric", .bytes [97,
    117, 116, 104]), (.str "biometricPerfBounds", .bool true)] = .ok
    ({ txAuthSimple := some "auth", txAuthGeneric := some [97, 117, 116, 104], biometricPerfBounds := some true })
    := by decide +kernel
example : parseExtensions [(.str "txAuthSimple", .str "auth"), (.str "authnSel", .bool true), (.str
    "exts", .list [.str "appid", .str "uvi"])] = .ok
    ({ txAuthSimple := some "auth", authnSel := some true, exts := some ["appid", "uvi"] }) := by
    decide +kernel
example : parseExtensions [(.str "txAuthSimple", .str "auth"), (.str "authnSel", .bool true), (.str
    "uvi", .bytes [117, 118, 105])] = .ok
    ({ txAuthSimple := some "auth", authnSel := some true, uvi := some [117, 118, 105] }) := by
    decide +kernel
example : parseExtensions [(.str "txAuthSimple", .str "auth"), (.str "authnSel", .bool true), (.str
    "loc", .dict [(.str "latitude", .int 1), (.str "longitude", .int 2), (.str "altitude", .int 3),
    (.str "accuracy", .float ⟨0x4010000000000000⟩), (.str "altitudeAccuracy", .float
    ⟨0x4014000000000000⟩), (.str "heading", .float ⟨0x4018000000000000⟩), (.str "speed", .float
    ⟨0x401c000000000000⟩)])] = .ok
    ({ txAuthSimple := some "auth", authnSel := some true, loc := some ({ latitude := some (.int 1), longitude := some (.int 2), altitude := some (.int 3), accuracy := some (.float ⟨0x4010000000000000⟩), altitudeAccuracy := some (.float ⟨0x4014000000000000⟩), heading := some (.float ⟨0x4018000000000000⟩), speed := some (.float ⟨0x401c000000000000⟩) }) })
    := by decide +kernel
example : parseExtensions [(.str "txAuthSimple", .str "auth"), (.str "authnSel", .bool true), (.str
    "uvm", .list [.list [.int 1, .int 2, .int 3], .list [.int 4, .int 5, .int 6]])] = .ok
    ({ txAuthSimple := some "auth", authnSel := some true, uvm := some [[1, 2, 3], [4, 5, 6]] }) :=
    by decide +kernel
example : parseExtensions [(.str "txAuthSimple", .str "auth"), (.str "authnSel", .bool true), (.str
    "biometricPerfBounds", .bool true)] = .ok
    ({ txAuthSimple := some "auth", authnSel := some true, biometricPerfBounds := some true }) := by
    decide +kernel
example : parseExtensions [(.str "txAuthSimple", .str "auth"), (.str "exts", .list [.str "appid",
    .str "uvi"]), (.str "uvi", .bytes [117, 118, 105])] = .ok
    ({ txAuthSimple := some "auth", exts := some ["appid", "uvi"], uvi := some [117, 118, 105] }) :=
    by decide +kernel
example : parseExtensions [(.str "txAuthSimple", .str "auth"), (.str "exts", .list [.str "appid",
    .str "uvi"]), (.str "loc", .dict [(.str "latitude", .int 1), (.str "longitude", .int 2), (.str
    "altitude", .int 3), (.str "accuracy", .float ⟨0x4010000000000000⟩), (.str "altitudeAccuracy",
    .float ⟨0x4014000000000000⟩), (.str "heading", .float ⟨0x4018000000000000⟩), (.str "speed",
    .float ⟨0x401c000000000000⟩)])] = .ok
    ({ txAuthSimple := some "auth", exts := some ["appid", "uvi"], loc := some ({ latitude := some (.int 1), longitude := some (.int 2), altitude := some (.int 3), accuracy := some (.float ⟨0x4010000000000000⟩), altitudeAccuracy := some (.float ⟨0x4014000000000000⟩), heading := some (.float ⟨0x4018000000000000⟩), speed := some (.float ⟨0x401c000000000000⟩) }) })
    := by decide +kernel
example : parseExtensions [(.str "txAuthSimple", .str "auth"), (.str "exts", .list [.str "appid",
    .str "uvi"]), (.str "uvm", .list [.list [.int 1, .int 2, .int 3], .list [.int 4, .int 5, .int
    6]])] = .ok
    ({ txAuthSimple := some "auth", exts := some ["appid", "uvi"], uvm := some [[1, 2, 3], [4, 5, 6]] })
    := by decide +kernel
example : parseExtensions [(.str "txAuthSimple", .str "auth"), (.str "exts", .list [.str "appid",
    .str "uvi"]), (.str "biometricPerfBounds", .bool true)] = .ok
    ({ txAuthSimple := some "auth", exts := some ["appid", "uvi"], biometricPerfBounds := some true })
    := by decide +kernel
example : parseExtensions [(.str "txAuthSimple", .str "auth"), (.str "uvi", .bytes [117, 118, 105]),
    (.str "loc", .dict [(.str "latitude", .int 1), (.str "longitude", .int 2), (.str "altitude",
    .int 3), (.str "accuracy", .float ⟨0x4010000000000000⟩), (.str "altitudeAccuracy", .float
    ⟨0x4014000000000000⟩), (.str "heading", .float ⟨0x4018000000000000⟩), (.str "speed", .float
    ⟨0x401c000000000000⟩)])] = .ok
    ({ txAuthSimple := some "auth", uvi := some [117, 118, 105], loc := some ({ latitude := some (.int 1), longitude := some (.int 2), altitude := some (.int 3), accuracy := some (.float ⟨0x4010000000000000⟩), altitudeAccuracy := some (.float ⟨0x4014000000000000⟩), heading := some (.float ⟨0x4018000000000000⟩), speed := some (.float ⟨0x401c000000000000⟩) }) })
    := by decide +kernel
example : parseExtensions [(.str "txAuthSimple", .str "auth"), (.str "uvi", .bytes [117, 118, 105]),
    (.str "uvm", .list [.list [.int 1, .int 2, .int 3], .list [.int 4, .int 5, .int 6]])] = .ok
    ({ txAuthSimple := some "auth", uvi := some [117, 118, 105], uvm := some [[1, 2, 3], [4, 5, 6]] })
    := by decide +kernel
example : parseExtensions [(.str "txAuthSimple", .str "auth"), (.str "uvi", .bytes [117, 118, 105]),
    (.str "biometricPerfBounds", .bool true)] = .ok
    ({ txAuthSimple := some "auth", uvi := some [117, 118, 105], biometricPerfBounds := some true })
    := by decide +kernel
example : parseExtensions [(.str "txAuthSimple", .str "auth"), (.str "loc", .dict [(.str "latitude",
    .int 1), (.str "longitude", .int 2), (.str "altitude", .int 3), (.str "accuracy", .float
    ⟨0x4010000000000000⟩), (.str "altitudeAccuracy", .float ⟨0x4014000000000000⟩), (.str "heading",
    .float ⟨0x4018000000000000⟩), (.str "speed", .float ⟨0x401c000000000000⟩)]), (.str "uvm", .list
    [.list [.int 1, .int 2, .int 3], .list [.int 4, .int 5, .int 6]])] = .ok
    ({ txAuthSimple := some "auth", loc := some ({ latitude := some (.int 1), longitude := some (.int 2), altitude := some (.int 3), accuracy := some (.float ⟨0x4010000000000000⟩), altitudeAccuracy := some (.float ⟨0x4014000000000000⟩), heading := some (.float ⟨0x4018000000000000⟩), speed := some (.float ⟨0x401c000000000000⟩) }), uvm := some [[1, 2, 3], [4, 5, 6]] })
    := by decide +kernel
example : parseExtensions [(.str "txAuthSimple", .str "auth"), (.str "loc", .dict [(.str "latitude",
    .int 1), (.str "longitude", .int 2), (.str "altitude", .int 3), (.str "accuracy", .float
    ⟨0x4010000000000000⟩), (.str "altitudeAccuracy", .float ⟨0x4014000000000000⟩), (.str "heading",
    .float ⟨0x4018000000000000⟩), (.str "speed", .float ⟨0x401c000000000000⟩)]), (.str
    "biometricPerfBounds", .bool true)] = .ok
    ({ txAuthSimple := some "auth", loc := some ({ latitude := some (.int 1), longitude := some (.int 2), altitude := some (.int 3), accuracy := some (.float ⟨0x4010000000000000⟩), altitudeAccuracy := some (.float ⟨0x4014000000000000⟩), heading := some (.float ⟨0x4018000000000000⟩), speed := some (.float ⟨0x401c000000000000⟩) }), biometricPerfBounds := some true })
    := by decide +kernel
example : parseExtensions [(.str "txAuthSimple", .str "auth"), (.str "uvm", .list [.list [.int 1,
    .int 2, .int 3], .list [.int 4, .int 5, .int 6]]), (.str "biometricPerfBounds", .bool true)] =
    .ok
    ({ txAuthSimple := some "auth", uvm := some [[1, 2, 3], [4, 5, 6]], biometricPerfBounds := some true })
    := by decide +kernel
example : parseExtensions [(.str "txAuthGeneric", .bytes [97, 117, 116, 104]), (.str "authnSel",
    .bool true), (.str "exts", .list [.str "appid", .str "uvi"])] = .ok
    ({ txAuthGeneric := some [97, 117, 116, 104], authnSel := some true, exts := some ["appid", "uvi"] })
    := by decide +kernel
example : parseExtensions [(.str "txAuthGeneric", .bytes [97, 117, 116, 104]), (.str "authnSel",
    .bool true), (.str "uvi", .bytes [117, 118, 105])] = .ok
    ({ txAuthGeneric := some [97, 117, 116, 104], authnSel := some true, uvi := some [117, 118, 105] })
    := by decide +kernel
example : parseExtensions [(.str "txAuthGeneric", .bytes [97, 117, 116, 104]), (.str "authnSel",
    .bool true), (.str "loc", .dict [(.str "latitude", .int 1), (.str "longitude", .int 2), (.str
    "altitude", .int 3), (.str "accuracy", .float ⟨0x4010000000000000⟩), (.str "altitudeAccuracy",
    .float ⟨0x4014000000000000⟩), (.str "heading", .float ⟨0x4018000000000000⟩), (.str "speed",
    .float ⟨0x401c000000000000⟩)])] = .ok
    ({ txAuthGeneric := some [97, 117, 116, 104], authnSel := some true, loc := some ({ latitude := some (.int 1), longitude := some (.int 2), altitude := some (.int 3), accuracy := some (.float ⟨0x4010000000000000⟩), altitudeAccuracy := some (.float ⟨0x4014000000000000⟩), heading := some (.float ⟨0x4018000000000000⟩), speed := some (.float ⟨0x401c000000000000⟩) }) })
    := by decide +kernel
example : parseExtensions [(.str "txAuthGeneric", .bytes [97, 117, 116, 104]), (.str "authnSel",
    .bool true), (.str "uvm", .list [.list [.int 1, .int 2, .int 3], .list [.int 4, .int 5, .int
    6]])] = .ok
    ({ txAuthGeneric := some [97, 117, 116, 104], authnSel := some true, uvm := some [[1, 2, 3], [4, 5, 6]] })
    := by decide +kernel
example : parseExtensions [(.str "txAuthGeneric", .bytes [97, 117, 116, 104]), (.str "authnSel",
    .bool true), (.str "biometricPerfBounds", .bool true)] = .ok
    ({ txAuthGeneric := some [97, 117, 116, 104], authnSel := some true, biometricPerfBounds := some true })
    := by decide +kernel
example : parseExtensions [(.str "txAuthGeneric", .bytes [97, 117, 116, 104]), (.str "exts", .list
    [.str "appid", .str "uvi"]), (.str "uvi", .bytes [117, 118, 105])] = .ok
    ({ txAuthGeneric := some [97, 117, 116, 104], exts := some ["appid", "uvi"], uvi := some [117, 118, 105] })
    := by decide +kernel
example : parseExtensions [(.str "txAuthGeneric", .bytes [97, 117, 116, 104]), (.str "exts", .list
    [.str "appid", .str "uvi"]), (.str "loc", .dict [(.str "latitude", .int 1), (.str "longitude",
    .int 2), (.str "altitude", .int 3), (.str "accuracy", .float ⟨0x4010000000000000⟩), (.str
    "altitudeAccuracy", .float ⟨0x4014000000000000⟩), (.str "heading", .float ⟨0x4018000000000000⟩),
    (.str "speed", .float ⟨0x401c000000000000⟩)])] = .ok
    ({ txAuthGeneric := some [97, 117, 116, 104], exts := some ["appid", "uvi"], loc := some ({ latitude := some (.int 1), longitude := some (.int 2), altitude := some (.int 3), accuracy := some (.float ⟨0x4010000000000000⟩), altitudeAccuracy := some (.float ⟨0x4014000000000000⟩), heading := some (.float ⟨0x4018000000000000⟩), speed := some (.float ⟨0x401c000000000000⟩) }) })
    := by decide +kernel
example : parseExtensions [(.str "txAuthGeneric", .bytes [97, 117, 116, 104]), (.str "exts", .list
    [.str "appid", .str "uvi"]), (.str "uvm", .list [.list [.int 1, .int 2, .int 3], .list [.int 4,
    .int 5, .int 6]])] = .ok
    ({ txAuthGeneric := some [97, 117, 116, 104], exts := some ["appid", "uvi"], uvm := some [[1, 2, 3], [4, 5, 6]] })
    := by decide +kernel
example : parseExtensions [(.str "txAuthGeneric", .bytes [97, 117, 116, 104]), (.str "exts", .list
    [.str "appid", .str "uvi"]), (.str "biometricPerfBounds", .bool true)] = .ok
    ({ txAuthGeneric := some [97, 117, 116, 104], exts := some ["appid", "uvi"], biometricPerfBounds := some true })
    := by decide +kernel
example : parseExtensions [(.str "txAuthGeneric", .bytes [97, 117, 116, 104]), (.str "uvi", .bytes
    [117, 118, 105]), (.str "loc", .dict [(.str "latitude", .int 1), (.str "longitude", .int 2),
    (.str "altitude", .int 3), (.str "accuracy", .float ⟨0x4010000000000000⟩), (.str
    "altitudeAccuracy", .float ⟨0x4014000000000000⟩), (.str "heading", .float ⟨0x4018000000000000⟩),
    (.str "speed", .float ⟨0x401c000000000000⟩)])] = .ok
    ({ txAuthGeneric := some [97, 117, 116, 104], uvi := some [117, 118, 105], loc := some ({ latitude := some (.int 1), longitude := some (.int 2), altitude := some (.int 3), accuracy := some (.float ⟨0x4010000000000000⟩), altitudeAccuracy := some (.float ⟨0x4014000000000000⟩), heading := some (.float ⟨0x4018000000000000⟩), speed := some (.float ⟨0x401c000000000000⟩) }) })
    := by decide +kernel
example : parseExtensions [(.str "txAuthGeneric", .bytes [97, 117, 116, 104]), (.str "uvi", .bytes
    [117, 118, 105]), (.str "uvm", .list [.list [.int 1, .int 2, .int 3], .list [.int 4, .int 5,
    .int 6]])] = .ok
    ({ txAuthGeneric := some [97, 117, 116, 104], uvi := some [117, 118, 105], uvm := some [[1, 2, 3], [4, 5, 6]] })
    := by decide +kernel
example : parseExtensions [(.str "txAuthGeneric", .bytes [97, 117, 116, 104]), (.str "uvi", .bytes
    [117, 118, 105]), (.str "biometricPerfBounds", .bool true)] = .ok
    ({ txAuthGeneric := some [97, 117, 116, 104], uvi := some [117, 118, 105], biometricPerfBounds := some true })
    := by decide +kernel
example : parseExtensions [(.str "txAuthGeneric", .bytes [97, 117, 116, 104]), (.str "loc", .dict
    [(.str "latitude", .int 1), (.str "longitude", .int 2), (.str "altitude", .int 3), (.str
    "accuracy", .float ⟨0x4010000000000000⟩), (.str "altitudeAccuracy", .float
    ⟨0x4014000000000000⟩), (.str "heading", .float ⟨0x4018000000000000⟩), (.str "speed", .float
    ⟨0x401c000000000000⟩)]), (.str "uvm", .list [.list [.int 1, .int 2, .int 3], .list [.int 4, .int
    5, .int 6]])] = .ok
    ({ txAuthGeneric := some [97, 117, 116, 104], loc := some ({ latitude := some (.int 1), longitude := some (.int 2), altitude := some (.int 3), accuracy := some (.float ⟨0x4010000000000000⟩), altitudeAccuracy := some (.float ⟨0x4014000000000000⟩), heading := some (.float ⟨0x4018000000000000⟩), speed := some (.float ⟨0x401c000000000000⟩) }), uvm := some [[1, 2, 3], [4, 5, 6]] })
    := by decide +kernel
example : parseExtensions [(.str "txAuthGeneric", .bytes [97, 117, 116, 104]), (.str "loc", .dict
    [(.str "latitude", .int 1), (.str "longitude", .int 2), (.str "altitude", .int 3), (.str
    "accuracy", .float ⟨0x4010000000000000⟩), (.str "altitudeAccuracy", .float
    ⟨0x4014000000000000⟩), (.str "heading", .float ⟨0x4018000000000000⟩), (.str "speed", .float
    ⟨0x401c000000000000⟩)]), (.str "biometricPerfBounds", .bool true)] = .ok
    ({ txAuthGeneric := some [97, 117, 116, 104], loc := some ({ latitude := some (.int 1), longitude := some (.int 2), altitude := some (.int 3), accuracy := some (.float ⟨0x4010000000000000⟩), altitudeAccuracy := some (.float ⟨0x4014000000000000⟩), heading := some (.float ⟨0x4018000000000000⟩), speed := some (.float ⟨0x401c000000000000⟩) }), biometricPerfBounds := some true })
    := by decide +kernel
example : parseExtensions [(.str "txAuthGeneric", .bytes [97, 117, 116, 104]), (.str "uvm", .list
    [.list [.int 1, .int 2, .int 3], .list [.int 4, .int 5, .int 6]]), (.str "biometricPerfBounds",
    .bool true)] = .ok
    ({ txAuthGeneric := some [97, 117, 116, 104], uvm := some [[1, 2, 3], [4, 5, 6]], biometricPerfBounds := some true })
    := by decide +kernel
example : parseExtensions [(.str "authnSel", .bool true), (.str "exts", .list [.str "appid", .str
    "uvi"]), (.str "uvi", .bytes [117, 118, 105])] = .ok
    ({ authnSel := some true, exts := some ["appid", "uvi"], uvi := some [117, 118, 105] }) := by
    decide +kernel
example : parseExtensions [(.str "authnSel", .bool true), (.str "exts", .list [.str "appid", .str
    "uvi"]), (.str "loc", .dict [(.str "latitude", .int 1), (.str "longitude", .int 2), (.str
    "altitude", .int 3), (.str "accuracy", .float ⟨0x4010000000000000⟩), (.str "altitudeAccuracy",
    .float ⟨0x4014000000000000⟩), (.str "heading", .float ⟨0x4018000000000000⟩), (.str "speed",
    .float ⟨0x401c000000000000⟩)])] = .ok
    ({ authnSel := some true, exts := some ["appid", "uvi"], loc := some ({ latitude := some (.int 1), longitude := some (.int 2), altitude := some (.int 3), accuracy := some (.float ⟨0x4010000000000000⟩), altitudeAccuracy := some (.float ⟨0x4014000000000000⟩), heading := some (.float ⟨0x4018000000000000⟩), speed := some (.float ⟨0x401c000000000000⟩) }) })
    := by decide +kernel
example : parseExtensions [(.str "authnSel", .bool true), (.str "exts", .list [.str "appid", .str
    "uvi"]), (.str "uvm", .list [.list [.int 1, .int 2, .int 3], .list [.int 4, .int 5, .int 6]])] =
    .ok
    ({ authnSel := some true, exts := some ["appid", "uvi"], uvm := some [[1, 2, 3], [4, 5, 6]] })
    := by decide +kernel
example : parseExtensions [(.str "authnSel", .bool true), (.str "exts", .list [.str "appid", .str
    "uvi"]), (.str "biometricPerfBounds", .bool true)] = .ok
    ({ authnSel := some true, exts := some ["appid", "uvi"], biometricPerfBounds := some true }) :=
    by decide +kernel
example : parseExtensions [(.str "authnSel", .bool true), (.str "uvi", .bytes [117, 118, 105]),
    (.str "loc", .dict [(.str "latitude", .int 1), (.str "longitude", .int 2), (.str "altitude",
    .int 3), (.str "accuracy", .float ⟨0x4010000000000000⟩), (.str "altitudeAccuracy", .float
    ⟨0x4014000000000000⟩), (.str "heading", .float ⟨0x4018000000000000⟩), (.str "speed", .float
    ⟨0x401c000000000000⟩)])] = .ok
    ({ authnSel := some true, uvi := some [117, 118, 105], loc := some ({ latitude := some (.int 1), longitude := some (.int 2), altitude := some (.int 3), accuracy := some (.float ⟨0x4010000000000000⟩), altitudeAccuracy := some (.float ⟨0x4014000000000000⟩), heading := some (.float ⟨0x4018000000000000⟩), speed := some (.float ⟨0x401c000000000000⟩) }) })
    := by decide +kernel
example : parseExtensions [(.str "authnSel", .bool true), (.str "uvi", .bytes [117, 118, 105]),
    (.str "uvm", .list [.list [.int 1, .int 2, .int 3], .list [.int 4, .int 5, .int 6]])] = .ok
    ({ authnSel := some true, uvi := some [117, 118, 105], uvm := some [[1, 2, 3], [4, 5, 6]] }) :=
    by decide +kernel
example : parseExtensions [(.str "authnSel", .bool true), (.str "uvi", .bytes [117, 118, 105]),
    (.str "biometricPerfBounds", .bool true)] = .ok
    ({ authnSel := some true, uvi := some [117, 118, 105], biometricPerfBounds := some true }) := by
    decide +kernel
example : parseExtensions [(.str "authnSel", .bool true), (.str "loc", .dict [(.str "latitude", .int
    1), (.str "longitude", .int 2), (.str "altitude", .int 3), (.str "accuracy", .float
    ⟨0x4010000000000000⟩), (.str "altitudeAccuracy", .float ⟨0x4014000000000000⟩), (.str "heading",
    .float ⟨0x4018000000000000⟩), (.str "speed", .float ⟨0x401c000000000000⟩)]), (.str "uvm", .list
    [.list [.int 1, .int 2, .int 3], .list [.int 4, .int 5, .int 6]])] = .ok
    ({ authnSel := some true, loc := some ({ latitude := some (.int 1), longitude := some (.int 2), altitude := some (.int 3), accuracy := some (.float ⟨0x4010000000000000⟩), altitudeAccuracy := some (.float ⟨0x4014000000000000⟩), heading := some (.float ⟨0x4018000000000000⟩), speed := some (.float ⟨0x401c000000000000⟩) }), uvm := some [[1, 2, 3], [4, 5, 6]] })
    := by decide +kernel
example : parseExtensions [(.str "authnSel", .bool true), (.str "loc", .dict [(.str "latitude", .int
    1), (.str "longitude", .int 2), (.str "altitude", .int 3), (.str "accuracy", .float
    ⟨0x4010000000000000⟩), (.str "altitudeAccuracy", .float ⟨0x4014000000000000⟩), (.str "heading",
    .float ⟨0x4018000000000000⟩), (.str "speed", .float ⟨0x401c000000000000⟩)]), (.str
    "biometricPerfBounds", .bool true)] = .ok
    ({ authnSel := some true, loc := some ({ latitude := some (.int 1), longitude := some (.int 2), altitude := some (.int 3), accuracy := some (.float ⟨0x4010000000000000⟩), altitudeAccuracy := some (.float ⟨0x4014000000000000⟩), heading := some (.float ⟨0x4018000000000000⟩), speed := some (.float ⟨0x401c000000000000⟩) }), biometricPerfBounds := some true })
    := by decide +kernel
example : parseExtensions [(.str "authnSel", .bool true), (.str "uvm", .list [.list [.int 1, .int 2,
    .int 3], .list [.int 4, .int 5, .int 6]]), (.str "biometricPerfBounds", .bool true)] = .ok
    ({ authnSel := some true, uvm := some [[1, 2, 3], [4, 5, 6]], biometricPerfBounds := some true })
    := by decide +kernel
example : parseExtensions [(.str "exts", .list [.str "appid", .str "uvi"]), (.str "uvi", .bytes
    [117, 118, 105]), (.str "loc", .dict [(.str "latitude", .int 1), (.str "longitude", .int 2),
    (.str "altitude", .int 3), (.str "accuracy", .float ⟨0x4010000000000000⟩), (.str
    "altitudeAccuracy", .float ⟨0x4014000000000000⟩), (.str "heading", .float ⟨0x4018000000000000⟩),
    (.str "speed", .float ⟨0x401c000000000000⟩)])] = .ok
    ({ exts := some ["appid", "uvi"], uvi := some [117, 118, 105], loc := some ({ latitude := some (.int 1), longitude := some (.int 2), altitude := some (.int 3), accuracy := some (.float ⟨0x4010000000000000⟩), altitudeAccuracy := some (.float ⟨0x4014000000000000⟩), heading := some (.float ⟨0x4018000000000000⟩), speed := some (.float ⟨0x401c000000000000⟩) }) })
    := by decide +kernel
example : parseExtensions [(.str "exts", .list [.str "appid", .str "uvi"]), (.str "uvi", .bytes
    [117, 118, 105]), (.str "uvm", .list [.list [.int 1, .int 2, .int 3], .list [.int 4, .int 5,
    .int 6]])] = .ok
    ({ exts := some ["appid", "uvi"], uvi := some [117, 118, 105], uvm := some [[1, 2, 3], [4, 5, 6]] })
    := by decide +kernel
example : parseExtensions [(.str "exts", .list [.str "appid", .str "uvi"]), (.str "uvi", .bytes
    [117, 118, 105]), (.str "biometricPerfBounds", .bool true)] = .ok
    ({ exts := some ["appid", "uvi"], uvi := some [117, 118, 105], biometricPerfBounds := some true })
    := by decide +kernel
example : parseExtensions [(.str "exts", .list [.str "appid", .str "uvi"]), (.str "loc", .dict
    [(.str "latitude", .int 1), (.str "longitude", .int 2), (.str "altitude", .int 3), (.str
    "accuracy", .float ⟨0x4010000000000000⟩), (.str "altitudeAccuracy", .float
    ⟨0x4014000000000000⟩), (.str "heading", .float ⟨0x4018000000000000⟩), (.str "speed", .float
    ⟨0x401c000000000000⟩)]), (.str "uvm", .list [.list [.int 1, .int 2, .int 3], .list [.int 4, .int
    5, .int 6]])] = .ok
    ({ exts := some ["appid", "uvi"], loc := some ({ latitude := some (.int 1), longitude := some (.int 2), altitude := some (.int 3), accuracy := some (.float ⟨0x4010000000000000⟩), altitudeAccuracy := some (.float ⟨0x4014000000000000⟩), heading := some (.float ⟨0x4018000000000000⟩), speed := some (.float ⟨0x401c000000000000⟩) }), uvm := some [[1, 2, 3], [4, 5, 6]] })
    := by decide +kernel
example : parseExtensions [(.str "exts", .list [.str "appid", .str "uvi"]), (.str "loc", .dict
    [(.str "latitude", .int 1), (.str "longitude", .int 2), (.str "altitude", .int 3), (.str
    "accuracy", .float ⟨0x4010000000000000⟩), (.str "altitudeAccuracy", .float
    ⟨0x4014000000000000⟩), (.str "heading", .float ⟨0x4018000000000000⟩), (.str "speed", .float
    ⟨0x401c000000000000⟩)]), (.str "biometricPerfBounds", .bool true)] = .ok
    ({ exts := some ["appid", "uvi"], loc := some ({ latitude := some (.int 1), longitude := some (.int 2), altitude := some (.int 3), accuracy := some (.float ⟨0x4010000000000000⟩), altitudeAccuracy := some (.float ⟨0x4014000000000000⟩), heading := some (.float ⟨0x4018000000000000⟩), speed := some (.float ⟨0x401c000000000000⟩) }), biometricPerfBounds := some true })
    := by decide +kernel
example : parseExtensions [(.str "exts", .list [.str "appid", .str "uvi"]), (.str "uvm", .list
    [.list [.int 1, .int 2, .int 3], .list [.int 4, .int 5, .int 6]]), (.str "biometricPerfBounds",
    .bool true)] = .ok
    ({ exts := some ["appid", "uvi"], uvm := some [[1, 2, 3], [4, 5, 6]], biometricPerfBounds := some true })
    := by decide +kernel
example : parseExtensions [(.str "uvi", .bytes [117, 118, 105]), (.str "loc", .dict [(.str
    "latitude", .int 1), (.str "longitude", .int 2), (.str "altitude", .int 3), (.str "accuracy",
    .float ⟨0x4010000000000000⟩), (.str "altitudeAccuracy", .float ⟨0x4014000000000000⟩), (.str
    "heading", .float ⟨0x4018000000000000⟩), (.str "speed", .float ⟨0x401c000000000000⟩)]), (.str
    "uvm", .list [.list [.int 1, .int 2, .int 3], .list [.int 4, .int 5, .int 6]])] = .ok
    ({ uvi := some [117, 118, 105], loc := some ({ latitude := some (.int 1), longitude := some (.int 2), altitude := some (.int 3), accuracy := some (.float ⟨0x4010000000000000⟩), altitudeAccuracy := some (.float ⟨0x4014000000000000⟩), heading := some (.float ⟨0x4018000000000000⟩), speed := some (.float ⟨0x401c000000000000⟩) }), uvm := some [[1, 2, 3], [4, 5, 6]] })
    := by decide +kernel
example : parseExtensions [(.str "uvi", .bytes [117, 118, 105]), (.str "loc", .dict [(.str
    "latitude", .int 1), (.str "longitude", .int 2), (.str "altitude", .int 3), (.str "accuracy",
    .float ⟨0x4010000000000000⟩), (.str "altitudeAccuracy", .float ⟨0x4014000000000000⟩), (.str
    "heading", .float ⟨0x4018000000000000⟩), (.str "speed", .float ⟨0x401c000000000000⟩)]), (.str
    "biometricPerfBounds", .bool true)] = .ok
    ({ uvi := some [117, 118, 105], loc := some ({ latitude := some (.int 1), longitude := some (.int 2), altitude := some (.int 3), accuracy := some (.float ⟨0x4010000000000000⟩), altitudeAccuracy := some (.float ⟨0x4014000000000000⟩), heading := some (.float ⟨0x4018000000000000⟩), speed := some (.float ⟨0x401c000000000000⟩) }), biometricPerfBounds := some true })
    := by decide +kernel
example : parseExtensions [(.str "uvi", .bytes [117, 118, 105]), (.str "uvm", .list [.list [.int 1,
    .int 2, .int 3], .list [.int 4, .int 5, .int 6]]), (.str "biometricPerfBounds", .bool true)] =
    .ok
    ({ uvi := some [117, 118, 105], uvm := some [[1, 2, 3], [4, 5, 6]], biometricPerfBounds := some true })
    := by decide +kernel
example : parseExtensions [(.str "loc", .dict [(.str "latitude", .int 1), (.str "longitude", .int
    2), (.str "altitude", .int 3), (.str "accuracy", .float ⟨0x4010000000000000⟩), (.str
    "altitudeAccuracy", .float ⟨0x4014000000000000⟩), (.str "heading", .float ⟨0x4018000000000000⟩),
    (.str "speed", .float ⟨0x401c000000000000⟩)]), (.str "uvm", .list [.list [.int 1, .int 2, .int
    3], .list [.int 4, .int 5, .int 6]]), (.str "biometricPerfBounds", .bool true)] = .ok
    ({ loc := some ({ latitude := some (.int 1), longitude := some (.int 2), altitude := some (.int 3), accuracy := some (.float ⟨0x4010000000000000⟩), altitudeAccuracy := some (.float ⟨0x4014000000000000⟩), heading := some (.float ⟨0x4018000000000000⟩), speed := some (.float ⟨0x401c000000000000⟩) }), uvm := some [[1, 2, 3], [4, 5, 6]], biometricPerfBounds := some true })
    := by decide +kernel

/-! `test_parse_extensions_error` (tests/test_parsers.py 979-1027) -/

example : raises [.parser, .decoding] (parseExtensions [(.str "invalid", .int 1)]) = true := by
    decide +kernel
example : raises [.parser, .decoding] (parseExtensions [(.str "appid", .str "invalid")]) = true :=
    by decide +kernel
example : raises [.parser, .decoding] (parseExtensions [(.str "appid", .bytes [105, 110, 118, 97,
    108, 105, 100])]) = true := by decide +kernel
example : raises [.parser, .decoding] (parseExtensions [(.str "txAuthSimple", .bytes [97, 117, 116,
    104])]) = true := by decide +kernel
example : raises [.parser, .decoding] (parseExtensions [(.str "txAuthSimple", .int 1)]) = true := by
    decide +kernel
example : raises [.parser, .decoding] (parseExtensions [(.str "txAuthGeneric", .str "auth")]) = true
    := by decide +kernel
example : raises [.parser, .decoding] (parseExtensions [(.str "txAuthGeneric", .float
    ⟨0x3ff0000000000000⟩)]) = true := by decide +kernel
example : raises [.parser, .decoding] (parseExtensions [(.str "authnSel", .str "invalid")]) = true
    := by decide +kernel
example : raises [.parser, .decoding] (parseExtensions [(.str "authnSel", .int 1)]) = true := by
    decide +kernel
example : raises [.parser, .decoding] (parseExtensions [(.str "exts", .list [.str "appid", .bytes
    [117, 118, 105]])]) = true := by decide +kernel
example : raises [.parser, .decoding] (parseExtensions [(.str "exts", .list [.int 1, .str "uvi"])])
    = true := by decide +kernel
example : raises [.parser, .decoding] (parseExtensions [(.str "exts", .str "invalid")]) = true := by
    decide +kernel
example : raises [.parser, .decoding] (parseExtensions [(.str "uvi", .str "uvi")]) = true := by
    decide +kernel
example : raises [.parser, .decoding] (parseExtensions [(.str "uvi", .int 1)]) = true := by
    decide +kernel
example : raises [.parser, .decoding] (parseExtensions [(.str "loc", .dict [(.str "latitude", .str
    "invalid"), (.str "longitude", .int 2), (.str "altitude", .int 3), (.str "accuracy", .float
    ⟨0x4010000000000000⟩), (.str "altitudeAccuracy", .float ⟨0x4014000000000000⟩), (.str "heading",
    .float ⟨0x4018000000000000⟩), (.str "speed", .float ⟨0x401c000000000000⟩)])]) = true := by
    decide +kernel
example : raises [.parser, .decoding] (parseExtensions [(.str "loc", .dict [(.str "latitude", .int
    1), (.str "longitude", .int 2), (.str "altitude", .int 3), (.str "accuracy", .bytes [105, 110,
    118, 97, 108, 105, 100]), (.str "altitudeAccuracy", .float ⟨0x4014000000000000⟩), (.str
    "heading", .float ⟨0x4018000000000000⟩), (.str "speed", .float ⟨0x401c000000000000⟩)])]) = true
    := by decide +kernel
example : raises [.parser, .decoding] (parseExtensions [(.str "uvm", .list [.list [.str "invalid",
    .int 2, .int 3], .list [.int 4, .int 5, .int 6]])]) = true := by decide +kernel
example : raises [.parser, .decoding] (parseExtensions [(.str "uvm", .list [.list [.int 1, .float
    ⟨0x4000000000000000⟩, .int 3], .list [.int 4, .int 5, .int 6]])]) = true := by decide +kernel
example : raises [.parser, .decoding] (parseExtensions [(.str "uvm", .str "invalid")]) = true := by
    decide +kernel
example : raises [.parser, .decoding] (parseExtensions [(.str "biometricPerfBounds", .str
    "invalid")]) = true := by decide +kernel
example : raises [.parser, .decoding] (parseExtensions [(.str "biometricPerfBounds", .int 1)]) =
    true := by decide +kernel

/-! `test__parse_attestation_statement_alg_success` (tests/test_parsers.py 1030-1037) -/

example : parseStmtAlg [(.str "alg", .str "ES256")] = .ok (.name .ES256) := by decide +kernel
example : parseStmtAlg [(.str "alg", .str "ES384")] = .ok (.name .ES384) := by decide +kernel
example : parseStmtAlg [(.str "alg", .str "ES512")] = .ok (.name .ES512) := by decide +kernel
example : parseStmtAlg [(.str "alg", .str "EdDSA")] = .ok (.name .EDDSA) := by decide +kernel
example : parseStmtAlg [(.str "alg", .int (-7))] = .ok (.value .ES256) := by decide +kernel
example : parseStmtAlg [(.str "alg", .int (-35))] = .ok (.value .ES384) := by decide +kernel
example : parseStmtAlg [(.str "alg", .int (-36))] = .ok (.value .ES512) := by decide +kernel
example : parseStmtAlg [(.str "alg", .int (-8))] = .ok (.value .EDDSA) := by decide +kernel

/-! `test__parse_attestation_statement_alg_error` (tests/test_parsers.py 1040-1051) -/

example : raises [.parser, .decoding] (parseStmtAlg [(.str "alg", .str "invalid")]) = true := by
    decide +kernel
example : raises [.parser, .decoding] (parseStmtAlg [(.str "alg", .int (-1))]) = true := by
    decide +kernel
example : raises [.parser, .decoding] (parseStmtAlg []) = true := by decide +kernel

/-! `test__parse_attestation_statement_x5c_success` (tests/test_parsers.py 1054-1063) -/

example : parseStmtX5c [(.str "x5c", .list [.bytes [120], .bytes [121]])] = .ok [[120], [121]] := by
    decide +kernel
example : parseStmtX5c [(.str "x5c", .tuple [.bytes [120], .bytes [121]])] = .ok [[120], [121]] :=
    by decide +kernel

/-! `test__parse_attestation_statement_x5c_error` (tests/test_parsers.py 1066-1089) -/

example : raises [.parser, .decoding] (parseStmtX5c [(.str "x5c", .str "invalid")]) = true := by
    decide +kernel
example : raises [.parser, .decoding] (parseStmtX5c [(.str "x5c", .int (-1))]) = true := by
    decide +kernel
example : raises [.parser, .decoding] (parseStmtX5c [(.str "x5c", .list [.int 1])]) = true := by
    decide +kernel
example : raises [.parser, .decoding] (parseStmtX5c [(.str "x5c", .list [.str "x"])]) = true := by
    decide +kernel
example : raises [.parser, .decoding] (parseStmtX5c [(.str "x5c", .tuple [.int 1])]) = true := by
    decide +kernel
example : raises [.parser, .decoding] (parseStmtX5c [(.str "x5c", .tuple [.str "x"])]) = true := by
    decide +kernel
example : raises [.parser, .decoding] (parseStmtX5c []) = true := by decide +kernel

/-! `test_parse_packed_attestation_statement_success` (tests/test_parsers.py 1092-1117) -/

example : parsePackedStmt [(.str "alg", .int (-7)), (.str "sig", .bytes [115, 105, 103, 110, 97,
    116, 117, 114, 101])] = .ok (.packed (.value .ES256) [115, 105, 103, 110, 97, 116, 117, 114,
    101]) := by decide +kernel
example : parsePackedStmt [(.str "alg", .int (-7)), (.str "sig", .bytes [115, 105, 103, 110, 97,
    116, 117, 114, 101]), (.str "x5c", .list [.bytes [120], .bytes [121]])] = .ok (.packedX509
    (.value .ES256) [115, 105, 103, 110, 97, 116, 117, 114, 101] [[120], [121]]) := by
    decide +kernel
example : parsePackedStmt [(.str "alg", .int (-7)), (.str "sig", .bytes [115, 105, 103, 110, 97,
    116, 117, 114, 101]), (.str "ecdaaKeyId", .bytes [107, 101, 121, 45, 105, 100])] = .ok
    (.packedECDAA (.value .ES256) [115, 105, 103, 110, 97, 116, 117, 114, 101] [107, 101, 121, 45,
    105, 100]) := by decide +kernel

/-! `test_parse_packed_attestation_statement_error` (tests/test_parsers.py 1120-1133) -/

example : raises [.parser, .decoding] (parsePackedStmt []) = true := by decide +kernel
example : raises [.parser, .decoding] (parsePackedStmt [(.str "alg", .int (-1)), (.str "sig", .bytes
    [115, 105, 103, 110, 97, 116, 117, 114, 101])]) = true := by decide +kernel
example : raises [.parser, .decoding] (parsePackedStmt [(.str "alg", .int (-7)), (.str "sig", .str
    "signature")]) = true := by decide +kernel
example : raises [.parser, .decoding] (parsePackedStmt [(.str "invalid", .str "data"), (.str "alg",
    .int (-7)), (.str "sig", .bytes [115, 105, 103, 110, 97, 116, 117, 114, 101])]) = true := by
    decide +kernel

/-! `test_parse_tpm_attestation_statement_success` (tests/test_parsers.py 1136-1179) -/

example : parseTpmStmt [(.str "alg", .int (-7)), (.str "sig", .bytes [115, 105, 103, 110, 97, 116,
    117, 114, 101]), (.str "ver", .str "1"), (.str "certInfo", .bytes [99, 101, 114, 116, 45, 105,
    110, 102, 111]), (.str "pubArea", .bytes [112, 117, 98, 45, 97, 114, 101, 97])] = .ok (.tpm
    (.value .ES256) [115, 105, 103, 110, 97, 116, 117, 114, 101] "1" [99, 101, 114, 116, 45, 105,
    110, 102, 111] [112, 117, 98, 45, 97, 114, 101, 97]) := by decide +kernel
example : parseTpmStmt [(.str "alg", .int (-7)), (.str "sig", .bytes [115, 105, 103, 110, 97, 116,
    117, 114, 101]), (.str "ver", .str "1"), (.str "certInfo", .bytes [99, 101, 114, 116, 45, 105,
    110, 102, 111]), (.str "pubArea", .bytes [112, 117, 98, 45, 97, 114, 101, 97]), (.str "x5c",
    .list [.bytes [120], .bytes [121]])] = .ok (.tpmX509 (.value .ES256) [115, 105, 103, 110, 97,
    116, 117, 114, 101] "1" [99, 101, 114, 116, 45, 105, 110, 102, 111] [112, 117, 98, 45, 97, 114,
    101, 97] [[120], [121]]) := by decide +kernel
example : parseTpmStmt [(.str "alg", .int (-7)), (.str "sig", .bytes [115, 105, 103, 110, 97, 116,
    117, 114, 101]), (.str "ver", .str "1"), (.str "certInfo", .bytes [99, 101, 114, 116, 45, 105,
    110, 102, 111]), (.str "pubArea", .bytes [112, 117, 98, 45, 97, 114, 101, 97]), (.str
    "ecdaaKeyId", .bytes [107, 101, 121, 45, 105, 100])] = .ok (.tpmECDAA (.value .ES256) [115, 105,
    103, 110, 97, 116, 117, 114, 101] "1" [99, 101, 114, 116, 45, 105, 110, 102, 111] [112, 117, 98,
    45, 97, 114, 101, 97] [107, 101, 121, 45, 105, 100]) := by decide +kernel

/-! `test_parse_tpm_attestation_statement_error` (tests/test_parsers.py 1182-1238) -/

example : raises [.parser, .decoding] (parseTpmStmt []) = true := by decide +kernel
example : raises [.parser, .decoding] (parseTpmStmt [(.str "alg", .int (-1)), (.str "sig", .bytes
    [115, 105, 103, 110, 97, 116, 117, 114, 101]), (.str "ver", .str "1"), (.str "certInfo", .bytes
    [99, 101, 114, 116, 45, 105, 110, 102, 111]), (.str "pubArea", .bytes [112, 117, 98, 45, 97,
    114, 101, 97])]) = true := by decide +kernel
example : raises [.parser, .decoding] (parseTpmStmt [(.str "alg", .int (-7)), (.str "sig", .str
    "signature"), (.str "ver", .str "1"), (.str "certInfo", .bytes [99, 101, 114, 116, 45, 105, 110,
    102, 111]), (.str "pubArea", .bytes [112, 117, 98, 45, 97, 114, 101, 97])]) = true := by
    decide +kernel
example : raises [.parser, .decoding] (parseTpmStmt [(.str "alg", .int (-7)), (.str "sig", .str
    "signature"), (.str "ver", .bytes [49]), (.str "certInfo", .bytes [99, 101, 114, 116, 45, 105,
    110, 102, 111]), (.str "pubArea", .bytes [112, 117, 98, 45, 97, 114, 101, 97])]) = true := by
    decide +kernel
example : raises [.parser, .decoding] (parseTpmStmt [(.str "alg", .int (-7)), (.str "sig", .str
    "signature"), (.str "ver", .str "1"), (.str "certInfo", .str "cert-info"), (.str "pubArea",
    .bytes [112, 117, 98, 45, 97, 114, 101, 97])]) = true := by decide +kernel
example : raises [.parser, .decoding] (parseTpmStmt [(.str "alg", .int (-7)), (.str "sig", .str
    "signature"), (.str "ver", .str "1"), (.str "certInfo", .bytes [99, 101, 114, 116, 45, 105, 110,
    102, 111]), (.str "pubArea", .str "pub-area")]) = true := by decide +kernel
example : raises [.parser, .decoding] (parseTpmStmt [(.str "invalid", .str "data"), (.str "alg",
    .int (-7)), (.str "sig", .bytes [115, 105, 103, 110, 97, 116, 117, 114, 101]), (.str "ver", .str
    "1"), (.str "certInfo", .bytes [99, 101, 114, 116, 45, 105, 110, 102, 111]), (.str "pubArea",
    .bytes [112, 117, 98, 45, 97, 114, 101, 97])]) = true := by decide +kernel
example : raises [.parser, .decoding] (parseTpmStmt [(.str "invalid", .str "data"), (.str "alg",
    .int (-7)), (.str "sig", .bytes [115, 105, 103, 110, 97, 116, 117, 114, 101]), (.str "ver", .str
    "1"), (.str "certInfo", .bytes [99, 101, 114, 116, 45, 105, 110, 102, 111]), (.str "pubArea",
    .bytes [112, 117, 98, 45, 97, 114, 101, 97]), (.str "x5c", .list [.bytes [120], .bytes [121]])])
    = true := by decide +kernel
example : raises [.parser, .decoding] (parseTpmStmt [(.str "invalid", .str "data"), (.str "alg",
    .int (-7)), (.str "sig", .bytes [115, 105, 103, 110, 97, 116, 117, 114, 101]), (.str "ver", .str
    "1"), (.str "certInfo", .bytes [99, 101, 114, 116, 45, 105, 110, 102, 111]), (.str "pubArea",
    .bytes [112, 117, 98, 45, 97, 114, 101, 97]), (.str "ecdaaKeyId", .bytes [107, 101, 121, 45,
    105, 100])]) = true := by decide +kernel

/-! `test_parse_android_key_attestation_statement_success` (tests/test_parsers.py 1241-1261) -/

example : parseAndroidKeyStmt [(.str "alg", .int (-7)), (.str "sig", .bytes [115, 105, 103, 110, 97,
    116, 117, 114, 101]), (.str "x5c", .list [.bytes [120], .bytes [121]])] = .ok (.androidKey
    (.value .ES256) [115, 105, 103, 110, 97, 116, 117, 114, 101] [[120], [121]]) := by
    decide +kernel
example : parseAndroidKeyStmt [(.str "alg", .int (-7)), (.str "sig", .bytes [115, 105, 103, 110, 97,
    116, 117, 114, 101]), (.str "x5c", .list [.bytes [120], .bytes [121]])] = .ok (.androidKey
    (.value .ES256) [115, 105, 103, 110, 97, 116, 117, 114, 101] [[120], [121]]) := by
    decide +kernel

/-! `test_parse_android_key_attestation_statement_error` (tests/test_parsers.py 1264-1290) -/

example : raises [.parser, .decoding] (parseAndroidKeyStmt []) = true := by decide +kernel
example : raises [.parser, .decoding] (parseAndroidKeyStmt [(.str "alg", .int (-1)), (.str "sig",
    .bytes [115, 105, 103, 110, 97, 116, 117, 114, 101]), (.str "x5c", .list [.bytes [120], .bytes
    [121]])]) = true := by decide +kernel
example : raises [.parser, .decoding] (parseAndroidKeyStmt [(.str "alg", .int (-7)), (.str "sig",
    .str "signature"), (.str "x5c", .list [.bytes [120], .bytes [121]])]) = true := by
    decide +kernel
example : raises [.parser, .decoding] (parseAndroidKeyStmt [(.str "alg", .int (-7)), (.str "sig",
    .bytes [115, 105, 103, 110, 97, 116, 117, 114, 101]), (.str "x5c", .bytes [120])]) = true := by
    decide +kernel
example : raises [.parser, .decoding] (parseAndroidKeyStmt [(.str "invalid", .str "x"), (.str "alg",
    .int (-7)), (.str "sig", .bytes [115, 105, 103, 110, 97, 116, 117, 114, 101]), (.str "x5c",
    .list [.bytes [120], .bytes [121]])]) = true := by decide +kernel

/-! `test_parse_android_safetynet_attestation_statement_success` (tests/test_parsers.py 1293-1299) -/

example : parseSafetyNetStmt [(.str "ver", .str "1"), (.str "response", .bytes [114, 101, 115, 112,
    111, 110, 115, 101])] = .ok (.safetyNet "1" [114, 101, 115, 112, 111, 110, 115, 101]) := by
    decide +kernel

/-! `test_parse_android_safetynet_attestation_statement_error` (tests/test_parsers.py 1302-1320) -/

example : raises [.parser, .decoding] (parseSafetyNetStmt []) = true := by decide +kernel
example : raises [.parser, .decoding] (parseSafetyNetStmt [(.str "ver", .bytes [49]), (.str
    "response", .bytes [114, 101, 115, 112, 111, 110, 115, 101])]) = true := by decide +kernel
example : raises [.parser, .decoding] (parseSafetyNetStmt [(.str "ver", .str "1"), (.str "response",
    .str "response")]) = true := by decide +kernel
example : raises [.parser, .decoding] (parseSafetyNetStmt [(.str "invalid", .str "1"), (.str "ver",
    .str "1"), (.str "response", .bytes [114, 101, 115, 112, 111, 110, 115, 101])]) = true := by
    decide +kernel

/-! `test_parse_fido_u2f_attestation_statement_success` (tests/test_parsers.py 1323-1334) -/

example : parseFidoU2FStmt [(.str "sig", .bytes [115, 105, 103, 110, 97, 116, 117, 114, 101]), (.str
    "x5c", .list [.bytes [120]])] = .ok (.fidoU2F [115, 105, 103, 110, 97, 116, 117, 114, 101]
    [[120]]) := by decide +kernel
example : parseFidoU2FStmt [(.str "sig", .bytes [115, 105, 103, 110, 97, 116, 117, 114, 101]), (.str
    "x5c", .list [.bytes [120], .bytes [121]])] = .ok (.fidoU2F [115, 105, 103, 110, 97, 116, 117,
    114, 101] [[120], [121]]) := by decide +kernel

/-! `test_parse_fido_u2f_attestation_statement_error` (tests/test_parsers.py 1337-1354) -/

example : raises [.parser, .decoding] (parseFidoU2FStmt []) = true := by decide +kernel
example : raises [.parser, .decoding] (parseFidoU2FStmt [(.str "sig", .str "signature"), (.str
    "x5c", .list [.bytes [120], .bytes [121]])]) = true := by decide +kernel
example : raises [.parser, .decoding] (parseFidoU2FStmt [(.str "sig", .bytes [115, 105, 103, 110,
    97, 116, 117, 114, 101]), (.str "x5c", .list [.str "x", .bytes [121]])]) = true := by
    decide +kernel
example : raises [.parser, .decoding] (parseFidoU2FStmt [(.str "sig", .bytes [115, 105, 103, 110,
    97, 116, 117, 114, 101]), (.str "x5c", .bytes [120])]) = true := by decide +kernel

/-! `test_parse_none_attestation_statement_success` (tests/test_parsers.py 1357-1361) -/

example : parseNoneStmt [] = .ok .none := by decide +kernel

/-! `test_parse_none_attestation_statement_error` (tests/test_parsers.py 1364-1379) -/

example : raises [.parser, .decoding] (parseNoneStmt [(.str "alg", .int (-7)), (.str "sig", .bytes
    [115, 105, 103, 110, 97, 116, 117, 114, 101])]) = true := by decide +kernel
example : raises [.parser, .decoding] (parseNoneStmt [(.str "alg", .int (-7)), (.str "sig", .bytes
    [115, 105, 103, 110, 97, 116, 117, 114, 101]), (.str "x5c", .list [.bytes [120]])]) = true := by
    decide +kernel
example : raises [.parser, .decoding] (parseNoneStmt [(.str "sig", .bytes [115, 105, 103, 110, 97,
    116, 117, 114, 101]), (.str "x5c", .list [.bytes [120]])]) = true := by decide +kernel
example : raises [.parser, .decoding] (parseNoneStmt [(.str "invalid", .str "1")]) = true := by
    decide +kernel

/-! `test_parse_client_data_success` (tests/test_parsers.py 1382-1420) -/

example : clientDataOf (utf8Encode
    "{\"type\": \"type\", \"challenge\": \"challenge\", \"origin\": \"http://example.com\"}") = .ok
    ⟨"type", "challenge", "http://example.com", none⟩ := by decide +kernel
example : clientDataOf (utf8Encode
    "{\"type\": \"type\", \"challenge\": \"challenge\", \"origin\": \"http://example.com\", \"tokenBinding\": {\"status\": \"supported\"}}")
    = .ok ⟨"type", "challenge", "http://example.com", some (.SUPPORTED, none)⟩ := by decide +kernel
example : clientDataOf (utf8Encode
    "{\"type\": \"type\", \"challenge\": \"challenge\", \"origin\": \"http://example.com\", \"tokenBinding\": {\"status\": \"present\", \"id\": \"binding-id\"}}")
    = .ok ⟨"type", "challenge", "http://example.com", some (.PRESENT, (some "binding-id"))⟩ := by
    decide +kernel

/-! `test_parse_client_data_error` (tests/test_parsers.py 1423-1478) -/

example : raises [.parser, .decoding, .tokenBinding] (parseClientData env (utf8Encode
    "{\"type\": -1, \"challenge\": \"challenge\", \"origin\": \"http://example.com\"}")) = true :=
    by decide +kernel
example : raises [.parser, .decoding, .tokenBinding] (parseClientData env (utf8Encode
    "{\"type\": \"type\", \"challenge\": -1, \"origin\": \"http://example.com\"}")) = true := by
    decide +kernel
example : raises [.parser, .decoding, .tokenBinding] (parseClientData env (utf8Encode
    "{\"type\": \"type\", \"challenge\": \"challenge\", \"origin\": -1}")) = true := by
    decide +kernel
example : raises [.parser, .decoding, .tokenBinding] (parseClientData env (utf8Encode
    "{\"type\": \"type\", \"challenge\": \"challenge\", \"origin\": \"http://example.com\", \"tokenBinding\": \"x\"}"))
    = true := by decide +kernel
example : raises [.parser, .decoding, .tokenBinding] (parseClientData env (utf8Encode
    "{\"type\": \"type\", \"challenge\": \"challenge\", \"origin\": \"http://example.com\", \"tokenBinding\": {}}"))
    = true := by decide +kernel
example : raises [.parser, .decoding, .tokenBinding] (parseClientData env (utf8Encode
    "{\"type\": \"type\", \"challenge\": \"challenge\", \"origin\": \"http://example.com\", \"tokenBinding\": {\"status\": -1}}"))
    = true := by decide +kernel
example : raises [.parser, .decoding, .tokenBinding] (parseClientData env (utf8Encode
    "{\"type\": \"type\", \"challenge\": \"challenge\", \"origin\": \"http://example.com\", \"tokenBinding\": {\"status\": \"----\"}}"))
    = true := by decide +kernel
example : raises [.parser, .decoding, .tokenBinding] (parseClientData env (utf8Encode
    "{\"type\": \"type\", \"challenge\": \"challenge\", \"origin\": \"http://example.com\", \"tokenBinding\": {\"status\": \"present\"}}"))
    = true := by decide +kernel

/-! `test_parse_cose_key_success` (tests/test_parsers.py 1481-1541) -/

example : parseCoseKeyDict [(.int (-2), .bytes (List.replicate 32 120)), (.int (-1), .int 6), (.int
    1, .int 1), (.int 2, .bytes [107, 105, 100]), (.int 3, .int (-8)), (.int 4, .list [.int 1, .int
    2]), (.int 5, .bytes [98, 97, 115, 101, 45, 73, 86])] = .ok (.okp
    { kty := .value .OKP, kid := some [107, 105, 100], alg := some (.value .EDDSA), keyOps := some [.value .SIGN, .value .VERIFY], baseIV := some [98, 97, 115, 101, 45, 73, 86] }
    (.value .ED25519) (List.replicate 32 120)) := by decide +kernel
example : parseCoseKeyDict [(.int (-3), .bytes (List.replicate 32 121)), (.int (-2), .bytes
    (List.replicate 32 120)), (.int (-1), .int 1), (.int 1, .int 2), (.int 2, .bytes [107, 105,
    100]), (.int 3, .int (-7)), (.int 4, .list [.int 1, .int 2]), (.int 5, .bytes [98, 97, 115, 101,
    45, 73, 86])] = .ok (.ec2
    { kty := .value .EC2, kid := some [107, 105, 100], alg := some (.value .ES256), keyOps := some [.value .SIGN, .value .VERIFY], baseIV := some [98, 97, 115, 101, 45, 73, 86] }
    (List.replicate 32 120) (List.replicate 32 121) (.value .P_256)) := by decide +kernel

/-! `test_parse_cose_key_error` (tests/test_parsers.py 1544-1596) -/

example : raises [.parser, .decoding] (parseCoseKeyDict [(.int (-2), .str
    "xxxxxxxxxxxxxxxxxxxxxxxxxxxxxxxxxxxxxxxxxxxxxxxxxxxxxxxxx"), (.int (-1), .int 7), (.int 1,
    .bytes [105, 110, 118, 97, 108, 105, 100]), (.int 2, .bytes [107, 105, 100]), (.int 3, .int
    (-8)), (.int 4, .list [.int 1, .int 2]), (.int 5, .bytes [98, 97, 115, 101, 45, 73, 86])]) =
    true := by decide +kernel
example : raises [.parser, .decoding] (parseCoseKeyDict [(.int (-2), .str
    "xxxxxxxxxxxxxxxxxxxxxxxxxxxxxxxxxxxxxxxxxxxxxxxxxxxxxxxxx"), (.int (-1), .int 7), (.int 1, .str
    "invalid"), (.int 2, .bytes [107, 105, 100]), (.int 3, .int (-8)), (.int 4, .list [.int 1, .int
    2]), (.int 5, .bytes [98, 97, 115, 101, 45, 73, 86])]) = true := by decide +kernel
example : raises [.parser, .decoding] (parseCoseKeyDict [(.int (-2), .str
    "xxxxxxxxxxxxxxxxxxxxxxxxxxxxxxxxxxxxxxxxxxxxxxxxxxxxxxxxx"), (.int (-1), .int 7), (.int 1, .int
    1), (.int 2, .bytes [107, 105, 100]), (.int 3, .int (-8)), (.int 4, .list [.int 1, .int 2]),
    (.int 5, .bytes [98, 97, 115, 101, 45, 73, 86])]) = true := by decide +kernel
example : raises [.parser, .decoding] (parseCoseKeyDict [(.int (-2), .str
    "xxxxxxxxxxxxxxxxxxxxxxxxxxxxxxxxxxxxxxxxxxxxxxxxxxxxxxxxx"), (.int (-1), .int 7), (.int 1, .int
    1), (.int 2, .bytes [107, 105, 100]), (.int 3, .int (-8)), (.int 4, .list [.int 1, .int 2]),
    (.int 5, .bytes [98, 97, 115, 101, 45, 73, 86])]) = true := by decide +kernel

/-! `test_parse_authenticator_data_success` (tests/test_parsers.py 1599-1730) -/

example : parseAuthenticatorData env (List.replicate 32 120 ++ [1, 121, 121, 121, 121]) = .ok
    ({ rpIdHash := (List.replicate 32 120), flags := 1, signCount := 2038004089, attested := none, extensions := none })
    := by decide +kernel
example : parseAuthenticatorData env (List.replicate 32 120 ++ [193, 121, 121, 121, 121] ++
    List.replicate 16 122 ++ [0, 10] ++ List.replicate 10 97 ++ [168, 34, 88, 32] ++ List.replicate
    32 121 ++ [33, 88, 32] ++ List.replicate 32 120 ++ [32, 1, 1, 2, 2, 67, 107, 105, 100, 3, 38, 4,
    130, 1, 2, 5, 71, 98, 97, 115, 101, 45, 73, 86, 161, 101, 97, 112, 112, 105, 100, 245]) = .ok
    ({ rpIdHash := (List.replicate 32 120), flags := 193, signCount := 2038004089, attested := some ({ aaguid := (List.replicate 16 122), credentialIdLength := 10, credentialId := (List.replicate 10 97), credentialPublicKey := some (.ec2 { kty := .value .EC2, kid := some [107, 105, 100], alg := some (.value .ES256), keyOps := some [.value .SIGN, .value .VERIFY], baseIV := some [98, 97, 115, 101, 45, 73, 86] } (List.replicate 32 120) (List.replicate 32 121) (.value .P_256)) }), extensions := some ({ appid := some true }) })
    := by decide +kernel
example : parseAuthenticatorData env (List.replicate 32 120 ++ [65, 121, 121, 121, 121] ++
    List.replicate 16 122 ++ [0, 10] ++ List.replicate 10 97 ++ [168, 34, 88, 32] ++ List.replicate
    32 121 ++ [33, 88, 32] ++ List.replicate 32 120 ++ [32, 1, 1, 2, 2, 67, 107, 105, 100, 3, 38, 4,
    130, 1, 2, 5, 71, 98, 97, 115, 101, 45, 73, 86]) = .ok
    ({ rpIdHash := (List.replicate 32 120), flags := 65, signCount := 2038004089, attested := some ({ aaguid := (List.replicate 16 122), credentialIdLength := 10, credentialId := (List.replicate 10 97), credentialPublicKey := some (.ec2 { kty := .value .EC2, kid := some [107, 105, 100], alg := some (.value .ES256), keyOps := some [.value .SIGN, .value .VERIFY], baseIV := some [98, 97, 115, 101, 45, 73, 86] } (List.replicate 32 120) (List.replicate 32 121) (.value .P_256)) }), extensions := none })
    := by decide +kernel
example : parseAuthenticatorData env (List.replicate 32 120 ++ [129, 121, 121, 121, 121, 161, 101,
    97, 112, 112, 105, 100, 245]) = .ok
    ({ rpIdHash := (List.replicate 32 120), flags := 129, signCount := 2038004089, attested := none, extensions := some ({ appid := some true }) })
    := by decide +kernel

/-! `test_parse_authenticator_data_error` (tests/test_parsers.py 1733-1816) -/

example : raises [.parser, .decoding] (parseAuthenticatorData env (List.replicate 32 120)) = true :=
    by decide +kernel
example : raises [.parser, .decoding] (parseAuthenticatorData env (List.replicate 32 120 ++ [129,
    121, 121, 121, 121])) = true := by decide +kernel
example : raises [.parser, .decoding] (parseAuthenticatorData env (List.replicate 32 120 ++ [1, 121,
    121, 121, 121, 161, 101, 97, 112, 112, 105, 100, 245])) = true := by decide +kernel
example : raises [.parser, .decoding] (parseAuthenticatorData env (List.replicate 32 120 ++ [1, 121,
    121, 121, 121] ++ List.replicate 16 122 ++ [0, 10] ++ List.replicate 10 97 ++ [168, 34, 88, 32]
    ++ List.replicate 32 121 ++ [33, 88, 32] ++ List.replicate 32 120 ++ [32, 1, 1, 2, 2, 67, 107,
    105, 100, 3, 38, 4, 130, 1, 2, 5, 71, 98, 97, 115, 101, 45, 73, 86])) = true := by
    decide +kernel
example : raises [.parser, .decoding] (parseAuthenticatorData env (List.replicate 32 120 ++ [65,
    121, 121, 121, 121])) = true := by decide +kernel
example : raises [.parser, .decoding] (parseAuthenticatorData env (List.replicate 32 120 ++ [65,
    121, 121, 121, 121] ++ List.replicate 16 122 ++ [0, 10] ++ List.replicate 10 97 ++ [105, 110,
    118, 97, 108, 105, 100])) = true := by decide +kernel
example : raises [.parser, .decoding] (parseAuthenticatorData env (List.replicate 32 120 ++ [65,
    121, 121, 121, 121] ++ List.replicate 16 122 ++ [0, 10] ++ List.replicate 10 97 ++ [131, 1, 2,
    3])) = true := by decide +kernel
example : raises [.parser, .decoding] (parseAuthenticatorData env (List.replicate 32 120 ++ [129,
    121, 121, 121, 121, 105, 110, 118, 97, 108, 105, 100])) = true := by decide +kernel
example : raises [.parser, .decoding] (parseAuthenticatorData env (List.replicate 32 120 ++ [129,
    121, 121, 121, 121, 131, 1, 2, 3])) = true := by decide +kernel

/-! `test_parse_attestation_success` (tests/test_parsers.py 1819-1924) -/

example : parseAttestationObject env ([163, 104, 97, 117, 116, 104, 68, 97, 116, 97, 88, 168] ++
    List.replicate 32 120 ++ [193, 121, 121, 121, 121] ++ List.replicate 16 122 ++ [0, 10] ++
    List.replicate 10 97 ++ [168, 34, 88, 32] ++ List.replicate 32 121 ++ [33, 88, 32] ++
    List.replicate 32 120 ++ [32, 1, 1, 2, 2, 67, 107, 105, 100, 3, 38, 4, 130, 1, 2, 5, 71, 98, 97,
    115, 101, 45, 73, 86, 161, 101, 97, 112, 112, 105, 100, 245, 99, 102, 109, 116, 104, 102, 105,
    100, 111, 45, 117, 50, 102, 103, 97, 116, 116, 83, 116, 109, 116, 162, 99, 115, 105, 103, 73,
    115, 105, 103, 110, 97, 116, 117, 114, 101, 99, 120, 53, 99, 129, 65, 120]) = .ok
    ({ authData := { rpIdHash := (List.replicate 32 120), flags := 193, signCount := 2038004089, attested := some ({ aaguid := (List.replicate 16 122), credentialIdLength := 10, credentialId := (List.replicate 10 97), credentialPublicKey := some (.ec2 { kty := .value .EC2, kid := some [107, 105, 100], alg := some (.value .ES256), keyOps := some [.value .SIGN, .value .VERIFY], baseIV := some [98, 97, 115, 101, 45, 73, 86] } (List.replicate 32 120) (List.replicate 32 121) (.value .P_256)) }), extensions := some ({ appid := some true }) }, fmt := .FIDO_U2F, attStmt := .fidoU2F [115, 105, 103, 110, 97, 116, 117, 114, 101] [[120]] },
    (List.replicate 32 120 ++ [193, 121, 121, 121, 121] ++ List.replicate 16 122 ++ [0, 10] ++
    List.replicate 10 97 ++ [168, 34, 88, 32] ++ List.replicate 32 121 ++ [33, 88, 32] ++
    List.replicate 32 120 ++ [32, 1, 1, 2, 2, 67, 107, 105, 100, 3, 38, 4, 130, 1, 2, 5, 71, 98, 97,
    115, 101, 45, 73, 86, 161, 101, 97, 112, 112, 105, 100, 245])) := by decide +kernel

/-! `test_parse_attestation_error` (tests/test_parsers.py 1927-2060) -/

example : raises [.parser, .decoding] (parseAttestationObject env [105, 110, 118, 97, 108, 105,
    100]) = true := by decide +kernel
example : raises [.parser, .decoding] (parseAttestationObject env [131, 1, 2, 3]) = true := by
    decide +kernel
example : raises [.parser, .decoding] (parseAttestationObject env [160]) = true := by decide +kernel
example : raises [.parser, .decoding] (parseAttestationObject env [163, 104, 97, 117, 116, 104, 68,
    97, 116, 97, 105, 97, 117, 116, 104, 45, 100, 97, 116, 97, 99, 102, 109, 116, 104, 102, 105,
    100, 111, 45, 117, 50, 102, 103, 97, 116, 116, 83, 116, 109, 116, 162, 99, 115, 105, 103, 73,
    115, 105, 103, 110, 97, 116, 117, 114, 101, 99, 120, 53, 99, 129, 65, 120]) = true := by
    decide +kernel
example : raises [.parser, .decoding] (parseAttestationObject env ([163, 104, 97, 117, 116, 104, 68,
    97, 116, 97, 88, 168] ++ List.replicate 32 120 ++ [193, 121, 121, 121, 121] ++ List.replicate 16
    122 ++ [0, 10] ++ List.replicate 10 97 ++ [168, 34, 88, 32] ++ List.replicate 32 121 ++ [33, 88,
    32] ++ List.replicate 32 120 ++ [32, 1, 1, 2, 2, 67, 107, 105, 100, 3, 38, 4, 130, 1, 2, 5, 71,
    98, 97, 115, 101, 45, 73, 86, 161, 101, 97, 112, 112, 105, 100, 245, 99, 102, 109, 116, 70, 112,
    97, 99, 107, 101, 100, 103, 97, 116, 116, 83, 116, 109, 116, 162, 99, 115, 105, 103, 73, 115,
    105, 103, 110, 97, 116, 117, 114, 101, 99, 120, 53, 99, 129, 65, 120])) = true := by
    decide +kernel
example : raises [.parser, .decoding] (parseAttestationObject env ([163, 104, 97, 117, 116, 104, 68,
    97, 116, 97, 88, 168] ++ List.replicate 32 120 ++ [193, 121, 121, 121, 121] ++ List.replicate 16
    122 ++ [0, 10] ++ List.replicate 10 97 ++ [168, 34, 88, 32] ++ List.replicate 32 121 ++ [33, 88,
    32] ++ List.replicate 32 120 ++ [32, 1, 1, 2, 2, 67, 107, 105, 100, 3, 38, 4, 130, 1, 2, 5, 71,
    98, 97, 115, 101, 45, 73, 86, 161, 101, 97, 112, 112, 105, 100, 245, 99, 102, 109, 116, 104,
    102, 105, 100, 111, 45, 117, 50, 102, 103, 97, 116, 116, 83, 116, 109, 116, 72, 97, 116, 116,
    45, 115, 116, 109, 116])) = true := by decide +kernel
example : raises [.parser, .decoding] (parseAttestationObject env ([163, 104, 97, 117, 116, 104, 68,
    97, 116, 97, 88, 168] ++ List.replicate 32 120 ++ [193, 121, 121, 121, 121] ++ List.replicate 16
    122 ++ [0, 10] ++ List.replicate 10 97 ++ [168, 34, 88, 32] ++ List.replicate 32 121 ++ [33, 88,
    32] ++ List.replicate 32 120 ++ [32, 1, 1, 2, 2, 67, 107, 105, 100, 3, 38, 4, 130, 1, 2, 5, 71,
    98, 97, 115, 101, 45, 73, 86, 161, 101, 97, 112, 112, 105, 100, 245, 99, 102, 109, 116, 32, 103,
    97, 116, 116, 83, 116, 109, 116, 162, 99, 115, 105, 103, 73, 115, 105, 103, 110, 97, 116, 117,
    114, 101, 99, 120, 53, 99, 129, 65, 120])) = true := by decide +kernel

end WebAuthn.Tests
