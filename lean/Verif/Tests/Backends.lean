import Verif.Tests.Basic

/-!
# The cases of tests/test_backends.py

Tests of the model, not proofs of claims.
-/

namespace WebAuthn.Tests.Backends

open WebAuthn

def user : UserEntity := { name := "user", id := utf8Encode "user-id", displayName := "username" }
def origin : String := "https://example.com"
def rp : RpEntity := { name := "example.com", id := "example.com" }
def rpIdHash : Bytes := digest (utf8Encode "example.com")
def key : CPK := ec2Key .P_256 (some (.value .ES256)) 1234567
def cryptoKey : CryptoKey := .ec .SECP256R1 1234567 1234568

def success : Registrar Unit where
  registerAttestation _ s := (.ok none, s)
  registerAssertion _ s := (.ok none, s)
  getCredentialData _ s := (.ok (some { publicKey := key, signatureCount := none, user }), s)

/-- `raise Exception()` in every method. -/
def exception : Registrar Unit where
  registerAttestation _ s := (.error (.other 0), s)
  registerAssertion _ s := (.error (.other 0), s)
  getCredentialData _ s := (.error (.other 0), s)

def error : Registrar Unit where
  registerAttestation _ s := (.ok (some "Error"), s)
  registerAssertion _ s := (.ok (some "Error"), s)
  getCredentialData _ s := (.ok (some { publicKey := key, signatureCount := none, user }), s)

/-- `SuccessCredentialsRegistrar` with another `get_credential_data`. -/
def returning (cd : Option CredentialData) : Registrar Unit :=
  { success with getCredentialData := fun _ s => (.ok cd, s) }

/-- The credential data of the tests, but for the counter, the user and the RP. -/
def data (u : UserEntity) (n : Option Int := none) (r : Option RpEntity := none) :
    Option CredentialData :=
  some { publicKey := key, signatureCount := n, user := u, rp := r }

def challenge : Bytes := utf8Encode "challenge"
def credentialId : Bytes := utf8Encode "credential-id"

/-- `json_bytes` of the client data; `base64s(b'challenge')` is written out. -/
def clientData (type : String) (challenge : String := "Y2hhbGxlbmdl") (rest : String := "") :
    Bytes :=
  utf8Encode ("{\"type\": \"" ++ type ++ "\", \"challenge\": \"" ++ challenge ++
    "\", \"origin\": \"https://example.com\"" ++ rest ++ "}")

def tokenPresent (id : String) : String :=
  ", \"tokenBinding\": {\"status\": \"present\", \"id\": \"" ++ id ++ "\"}"

def tokenSupported : String := ", \"tokenBinding\": {\"status\": \"supported\"}"

/-- `cbor2.dumps`. -/
def dumps (v : PyVal) : Bytes :=
  match Cbor.enc v with
  | .ok b => b
  | .error _ => []

def flagsUP : UInt8 := 1
def flagsAT : UInt8 := 64
def flagsED : UInt8 := 128

/-- `authenticator_data(...)` as all the tests call it, but for the hash and the flags. -/
def authData (hash : Bytes := rpIdHash) (flags : UInt8 := flagsUP ||| flagsAT ||| flagsED) : Bytes :=
  hash ++ [flags] ++ [0, 0, 0, 0] ++
  (List.replicate 16 122 ++ [0, 13] ++ credentialId ++
    dumps (.dict [(.int (-3), .bytes (toBE 32 1234568)), (.int (-2), .bytes (toBE 32 1234567)),
      (.int (-1), .int 1), (.int 1, .int 2), (.int 3, .int (-7))])) ++
  dumps (.dict [(.str "appid", .bool true)])

/-! ## Registration -/

def creation (client : Bytes) (ad : Bytes := authData) : Credential where
  id := "Y3JlZGVudGlhbC1pZA=="
  type := "credential-type"
  rawId := credentialId
  response := .attestation client (dumps (.dict [(.str "authData", .bytes ad),
    (.str "fmt", .str "none"), (.str "attStmt", .dict [])]))

def creationArgs (client : Bytes := clientData "webauthn.create") (ad : Bytes := authData) :
    AttestationArgs where
  credential := creation client ad
  user := user
  rp := rp
  expectedChallenge := challenge
  expectedOrigin := .one origin

def register (reg : Registrar Unit) (a : AttestationArgs) : Py Unit :=
  (handleAttestation env reg a ()).1

def expectedToken : Option TokenBinding := some ⟨.PRESENT, some "token-binding-id"⟩

/-! `test_credentials_backend_creation_success` (tests/test_backends.py 110-159) -/

example : register success creationArgs = .ok () := by decide +kernel

/-! `test_credentials_backend_creation_error` (tests/test_backends.py 162-524) -/

example : register success (creationArgs (clientData "webauthn.get")) =
    .error (.lib .clientDataType) := by decide +kernel
example : register success
    { creationArgs with expectedChallenge := challenge ++ utf8Encode "-altered" } =
    .error (.lib .challenge) := by decide +kernel
example : register success (creationArgs (clientData "webauthn.create" "\\u0090\\u0091\\u0092")) =
    .error (.lib .decoding) := by decide +kernel
example : register success
    { creationArgs with expectedOrigin := .one "https://example.org/path" } =
    .error (.lib .origin) := by decide +kernel
example : register success { creationArgs with expectedOrigin := .one "https://" } =
    .error (.lib .origin) := by decide +kernel
example : register success
    { creationArgs with expectedOrigin := .one "https://alternative.org" } =
    .error (.lib .origin) := by decide +kernel
example : register success { creationArgs with tokenBinding := expectedToken } =
    .error (.lib .tokenBinding) := by decide +kernel
example : register success { creationArgs
      (clientData "webauthn.create" (rest := tokenSupported)) with tokenBinding := expectedToken } =
    .error (.lib .tokenBinding) := by decide +kernel
example : register success { creationArgs
      (clientData "webauthn.create" (rest := tokenPresent "token-binding-id")) with
      tokenBinding := expectedToken } = .ok () := by decide +kernel
example : register success { creationArgs
      (clientData "webauthn.create" (rest := tokenPresent "token-binding-id-invalid")) with
      tokenBinding := expectedToken } = .error (.lib .tokenBinding) := by decide +kernel
example : register success (creationArgs
      (clientData "webauthn.create" (rest := tokenPresent "token-binding-id-invalid"))) =
    .error (.lib .tokenBinding) := by decide +kernel
example : register success
    (creationArgs (ad := authData (hash := digest (utf8Encode "invalid")))) =
    .error (.lib .rpIdHash) := by decide +kernel
example : register success (creationArgs (ad := authData (flags := flagsAT ||| flagsED))) =
    .error (.lib .userPresence) := by decide +kernel
example : register success { creationArgs with requireUserVerification := true } =
    .error (.lib .userVerification) := by decide +kernel
example : register success { creationArgs with expectedExtensions := some [.TX_AUTH_SIMPLE] } =
    .error (.lib .extension) := by decide +kernel
example : register exception creationArgs = .error (.lib .registration) := by decide +kernel
example : register error creationArgs = .error (.lib .registration) := by decide +kernel

/-! ## Authentication -/

def assertion (client : Bytes) (ad : Bytes := authData) (handle : Option Bytes := none) :
    Credential where
  id := "Y3JlZGVudGlhbC1pZA=="
  type := "credential-type"
  rawId := credentialId
  response := .assertion client ad (signEc cryptoKey .SHA256 (ad ++ digest client)) handle

def assertionArgs (client : Bytes := clientData "webauthn.get") (ad : Bytes := authData)
    (handle : Option Bytes := none) : AssertionArgs where
  credential := assertion client ad handle
  user := some user
  rp := some rp
  expectedChallenge := challenge
  expectedOrigin := .one origin

def authenticate (reg : Registrar Unit) (a : AssertionArgs) : Py Unit :=
  (handleAssertion env reg a ()).1

/-! `test_credentials_backend_request_success` (tests/test_backends.py 527-580) -/

example : authenticate success assertionArgs = .ok () := by decide +kernel

/-! `test_credentials_backend_request_error` (tests/test_backends.py 583-1189) -/

example : authenticate success
    { assertionArgs with allowCredentials := some [⟨utf8Encode "cred-id"⟩] } =
    .error (.lib .credentialNotAllowed) := by decide +kernel
example : authenticate exception assertionArgs = .error (.lib .registration) := by decide +kernel
example : authenticate (returning none) assertionArgs = .error (.lib .credentialData) := by
  decide +kernel
example : authenticate (returning (data { user with id := utf8Encode "user-id-mismatch" })) assertionArgs =
    .error (.lib .userId) := by decide +kernel
example : authenticate success { assertionArgs with user := none } =
    .error (.lib .userHandle) := by decide +kernel
example : authenticate success { assertionArgs with rp := none } =
    .error (.lib .rpNotFound) := by decide +kernel
example : authenticate (returning
      (data user (r := some { name := "example.com", id := "mismatch" }))) assertionArgs =
    .error (.lib .rpId) := by decide +kernel
example : authenticate (returning (data user (r := some rp))) { assertionArgs with rp := none } = .ok () := by decide +kernel
example : authenticate success (assertionArgs (handle := some (utf8Encode "mismatch"))) =
    .error (.lib .userHandle) := by decide +kernel
example : authenticate success (assertionArgs (clientData "webauthn.create")) =
    .error (.lib .clientDataType) := by decide +kernel
example : authenticate success
    (assertionArgs (clientData "webauthn.get" "\\u0090\\u0091\\u0092")) =
    .error (.lib .decoding) := by decide +kernel
example : authenticate success (assertionArgs (clientData "webauthn.get" "mismatch")) =
    .error (.lib .challenge) := by decide +kernel
example : authenticate success { assertionArgs with expectedOrigin := .one "https://mismatch" } =
    .error (.lib .origin) := by decide +kernel
example : authenticate success { assertionArgs with tokenBinding := some ⟨.SUPPORTED, none⟩ } =
    .error (.lib .tokenBinding) := by decide +kernel
example : authenticate success { assertionArgs
      (clientData "webauthn.get" (rest := tokenSupported)) with tokenBinding := expectedToken } =
    .error (.lib .tokenBinding) := by decide +kernel
example : authenticate success { assertionArgs
      (clientData "webauthn.get" (rest := tokenPresent "token-binding-id-mismatch")) with
      tokenBinding := expectedToken } = .error (.lib .tokenBinding) := by decide +kernel
example : authenticate success (assertionArgs
      (clientData "webauthn.get" (rest := tokenPresent "token-binding-id-mismatch"))) =
    .error (.lib .tokenBinding) := by decide +kernel

def withToken (ad : Bytes := authData) : AssertionArgs :=
  { assertionArgs (clientData "webauthn.get" (rest := tokenPresent "token-binding-id")) ad with
    tokenBinding := expectedToken }

example : authenticate (returning (data user (r := some rp))) { withToken (authData (flags := flagsAT ||| flagsED)) with
      rp := some { name := "example.com", id := "mismatch.example.com" } } =
    .error (.lib .rpId) := by decide +kernel
example : authenticate success (withToken (authData (flags := flagsAT ||| flagsED))) =
    .error (.lib .userPresence) := by decide +kernel
example : authenticate success { withToken with requireUserVerification := true } =
    .error (.lib .userVerification) := by decide +kernel
example : authenticate success { withToken with expectedExtensions := some [.TX_AUTH_SIMPLE] } =
    .error (.lib .extension) := by decide +kernel
example : authenticate (returning (data user (some 10)))
    withToken = .error (.lib .signatureCount) := by decide +kernel
example : authenticate { success with registerAssertion := fun _ s => (.error (.other 0), s) }
    withToken = .error (.lib .registration) := by decide +kernel
example : authenticate { success with registerAssertion := fun _ s => (.ok (some "Error"), s) }
    withToken = .error (.lib .registration) := by decide +kernel

end WebAuthn.Tests.Backends
