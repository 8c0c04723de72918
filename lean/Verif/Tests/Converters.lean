import Verif.Tests.Basic
import Verif.Model.Options

/-!
# The cases of tests/test_converters.py and tests/test_builders.py

Tests of the model, not proofs of claims.
-/

namespace WebAuthn.Tests.Converters

open WebAuthn

/-! `test_jsonify_success`, `test_jsonify_errors` (tests/test_converters.py 29-43) -/

example : gives (jsonify true .none) .none = true := by decide +kernel
example : raises [.jsonConversion] (jsonify true (.dict [(.int 1, .str "data")])) = true := by
  decide +kernel

/-! `test_jsonify_credential_creation_options` (tests/test_converters.py 46-163) -/

def extensions : ExtensionInputs where
  appid := some "appid"
  txAuthSimple := some "tx_auth_simple"
  txAuthGeneric := some ⟨"text/plain", utf8Encode "sample text"⟩
  authnSel := some { items := [utf8Encode "auth1", utf8Encode "auth2", utf8Encode "auth3"] }
  exts := some true
  uvi := some false
  loc := some true
  uvm := some false
  biometricPerfBounds := some ⟨.float ⟨0x3fd999999999999a⟩, .float ⟨0x3fe0000000000000⟩⟩

/-- The expected JSON object; the base64 texts are written out. -/
def extensionsJSON : PyVal :=
  .dict [(.str "appid", .str "appid"), (.str "txAuthSimple", .str "tx_auth_simple"),
    (.str "txAuthGeneric", .dict [(.str "contentType", .str "text/plain"),
      (.str "content", .str "c2FtcGxlIHRleHQ=")]),
    (.str "authnSel", .list [.str "YXV0aDE=", .str "YXV0aDI=", .str "YXV0aDM="]),
    (.str "exts", .bool true), (.str "uvi", .bool false), (.str "loc", .bool true),
    (.str "uvm", .bool false),
    (.str "biometricPerfBounds", .dict [(.str "FAR", .float ⟨0x3fd999999999999a⟩), (.str "FRR", .float ⟨0x3fe0000000000000⟩)])]

def descriptors : PySeq FullDescriptor where
  items := [{ id := utf8Encode "excluded-credential", transports := some { items := [.BLE, .NFC] } }]

def descriptorsJSON : PyVal :=
  .list [.dict [(.str "type", .str "public-key"), (.str "id", .str "ZXhjbHVkZWQtY3JlZGVudGlhbA=="),
    (.str "transports", .list [.str "ble", .str "nfc"])]]

def creation : CreationOptions where
  rp := { name := "Example Test", id := "example.test" }
  user := { name := "example", id := utf8Encode "random", displayName := "dp" }
  challenge := utf8Encode "secure-random"
  pubKeyCredParams := { items := [⟨.value .ES256⟩, ⟨.value .ES384⟩] }
  timeout := some 30500
  excludeCredentials := some descriptors
  authenticatorSelection := some {
    authenticatorAttachment := some .CROSS_PLATFORM
    requireResidentKey := false
    userVerification := .REQUIRED }
  attestation := .DIRECT
  extensions := some extensions

example : gives (jsonify true creation.toObj) (.dict [(.str "publicKey", .dict [
    (.str "rp", .dict [(.str "name", .str "Example Test"), (.str "id", .str "example.test")]),
    (.str "user", .dict [(.str "name", .str "example"), (.str "id", .str "cmFuZG9t"),
      (.str "displayName", .str "dp")]),
    (.str "challenge", .str "c2VjdXJlLXJhbmRvbQ=="),
    (.str "pubKeyCredParams", .list [
      .dict [(.str "type", .str "public-key"), (.str "alg", .int (-7))],
      .dict [(.str "type", .str "public-key"), (.str "alg", .int (-35))]]),
    (.str "timeout", .int 30500),
    (.str "authenticatorSelection", .dict [
      (.str "authenticatorAttachment", .str "cross-platform"),
      (.str "requireResidentKey", .bool false), (.str "userVerification", .str "required")]),
    (.str "extensions", extensionsJSON),
    (.str "attestation", .str "direct"),
    (.str "excludeCredentials", descriptorsJSON)])]) = true := by decide +kernel

/-! `test_jsonify_credential_request_options` (tests/test_converters.py 166-246) -/

def request : RequestOptions where
  mediation := .REQUIRED
  rpId := some "example.py"
  challenge := utf8Encode "request-challenge"
  timeout := some 3600
  extensions := some extensions
  userVerification := some .PREFERRED
  allowCredentials := some descriptors

example : gives (jsonify true request.toObj) (.dict [(.str "mediation", .str "required"),
    (.str "publicKey", .dict [(.str "rpId", .str "example.py"),
      (.str "challenge", .str "cmVxdWVzdC1jaGFsbGVuZ2U="),
      (.str "timeout", .int 3600), (.str "extensions", extensionsJSON),
      (.str "userVerification", .str "preferred"),
      (.str "allowCredentials", descriptorsJSON)])]) = true := by decide +kernel

/-! `test__build_base_cose_dictionary_success` (tests/test_converters.py 249-265) -/

example : gives ((buildBaseCoseDictionary {
      kty := .value .EC2
      kid := some (utf8Encode "kid")
      alg := some (.value .ES256)
      keyOps := some [.value .VERIFY]
      baseIV := some (utf8Encode "base-IV") }).map .dict)
    (.dict [(.int 1, .int 2), (.int 2, .bytes (utf8Encode "kid")), (.int 3, .int (-7)),
      (.int 4, .list [.int 2]), (.int 5, .bytes (utf8Encode "base-IV"))]) = true := by
  decide +kernel

/-! `test_cryptography_ec2_public_key` (tests/test_converters.py 268-290) -/

example : cryptographyPublicKey env (ec2Key .P_256 none 1234567) =
    .ok (.ec .SECP256R1 1234567 1234568) := by decide +kernel
example : cryptographyPublicKey env (ec2Key .P_384 none 1234567) =
    .ok (.ec .SECP384R1 1234567 1234568) := by decide +kernel
example : cryptographyPublicKey env (ec2Key .P_521 none 1234567) =
    .ok (.ec .SECP521R1 1234567 1234568) := by decide +kernel

/-! `test_cryptography_okp_public_key_ed25519`, `test_cryptography_okp_public_key_ed448`
(tests/test_converters.py 293-328) -/

example : cryptographyPublicKey env (okpKey .ED25519 none 1234567) =
    .ok (.ed25519 (toBE 32 1234567)) := by decide +kernel
example : cryptographyPublicKey env (okpKey .ED448 none 1234567) =
    .ok (.ed448 (toBE 57 1234567)) := by decide +kernel

/-! `test_cose_ec2_public_key`, `test_cose_okp_public_key` (tests/test_converters.py 331-347) -/

example : ∀ c ∈ [Curve.P_256, .P_384, .P_521],
    (coseKey env (ec2Key c (some (.value .ES256)) 1234567) >>= parseCoseKeyBytes env) =
      .ok (ec2Key c (some (.value .ES256)) 1234567) := by decide +kernel
example : ∀ c ∈ [Curve.ED25519, .ED448],
    (coseKey env (okpKey c (some (.value .ES256)) 1234567) >>= parseCoseKeyBytes env) =
      .ok (okpKey c (some (.value .ES256)) 1234567) := by decide +kernel

/-! `test_credential_creation_options_builder_success` (tests/test_builders.py 11-32) -/

def creationBuilder : CreationBuilder where
  rp := some creation.rp
  pubKeyCredParams := some creation.pubKeyCredParams
  timeout := some 30500
  authenticatorSelection := creation.authenticatorSelection
  extensions := some extensions
  attestation := some .DIRECT
  excludeCredentials := some descriptors

/-- The options are built. -/
def builds (b : Py CreationBuilder) : Bool :=
  (b >>= fun b => b.build (some creation.user) (some creation.challenge)).isOk

example : builds (.ok creationBuilder) = true := by decide +kernel
example : builds (creationBuilder.set (.rp (some creation.rp))) = true := by decide +kernel
example : builds (creationBuilder.set (.pubKeyCredParams (some creation.pubKeyCredParams))) =
    true := by decide +kernel
example : builds (creationBuilder.set (.timeout (some 1))) = true := by decide +kernel
example : builds (creationBuilder.set (.authenticatorSelection none)) = true := by decide +kernel
example : builds (creationBuilder.set (.extensions (some extensions))) = true := by decide +kernel
example : builds (creationBuilder.set (.attestation (some .NONE))) = true := by decide +kernel
example : builds (creationBuilder.set (.excludeCredentials (some descriptors))) = true := by
  decide +kernel

/-! `test_credential_creation_options_builder_error` (tests/test_builders.py 35-46) -/

example : raises [.builder] (({} : CreationBuilder).build (some creation.user)
    (some creation.challenge)) = true := by decide +kernel
example : ({} : CreationBuilder).set (.rp none) = .error .assertionError := by decide +kernel
example : ({} : CreationBuilder).set (.pubKeyCredParams none) = .error .assertionError := by
  decide +kernel

/-! `test_credential_request_options_builder_success` (tests/test_builders.py 49-71) -/

/-- The options are built. -/
def buildsRequest (b : Py RequestBuilder) (allow : Option (PySeq FullDescriptor)) : Bool :=
  (b >>= fun b => b.build (some request.challenge) allow).isOk

example : buildsRequest (.ok {
    mediation := some .REQUIRED, timeout := some 1, rpId := some "example.py"
    extensions := some extensions, userVerification := some .REQUIRED }) (some descriptors) =
    true := by decide +kernel
example : buildsRequest (.ok {}) none = true := by decide +kernel
example : ∀ m, buildsRequest (({} : RequestBuilder).set (.mediation (some m)))
    (some descriptors) = true := by intro m; cases m <;> decide +kernel
example : buildsRequest (({} : RequestBuilder).set (.timeout (some 1)))
    (some descriptors) = true := by decide +kernel
example : buildsRequest (({} : RequestBuilder).set (.rpId (some "example.py")))
    (some descriptors) = true := by decide +kernel
example : buildsRequest (({} : RequestBuilder).set (.extensions (some extensions)))
    (some descriptors) = true := by decide +kernel
example : buildsRequest (({} : RequestBuilder).set (.userVerification (some .REQUIRED)))
    (some descriptors) = true := by decide +kernel

/-! `test_credential_request_options_builder_error` (tests/test_builders.py 74-80) -/

example : ({} : RequestBuilder).set (.mediation none) = .error .assertionError := by
  decide +kernel

end WebAuthn.Tests.Converters
