import Verif.Tests.Basic

/-!
# The cases of tests/test_attesters.py

Tests of the model, not proofs of claims.
-/

namespace WebAuthn.Tests.Attesters

open WebAuthn

def clientDataHash : Bytes := utf8Encode "client-data-hash"
def authData : Bytes := utf8Encode "auth-data"
def rpIdHash : Bytes := digest (utf8Encode "example.org")
def credentialId : Bytes := utf8Encode "credential-id"

/-- The attestation object of the tests, with this key. -/
def attObj (k : CPK) (stmt : AttStmt) : AttObjArg := .attObj {
  authData := {
    rpIdHash
    flags := 0
    signCount := 0
    attested := some {
      aaguid := List.replicate 16 120
      credentialIdLength := 13
      credentialId
      credentialPublicKey := some k }
    extensions := none }
  fmt := .FIDO_U2F
  attStmt := stmt }

/-- The result, with the serial number of each certificate in place of the certificate. -/
def run (k : CPK) (stmt : AttStmt) : Py (AttestationType × Option (List Nat)) := do
  let (t, path) ← attest env stmt (attObj k stmt) authData clientDataHash
  return (t, path.map (·.map Cert.id))

/-- The number by which `env` tells a certificate from others. -/
def certId (b : Bytes) : Nat := beNat b.tail

/-- The key of the credential; the tests give it no algorithm. -/
def credentialKey (n : Nat) : CPK :=
  .ec2 { kty := .name .EC2 } (toBE 32 n) (toBE 32 (n + 1)) (.name .P_256)

/-! `test_attest_fido_u2f` (tests/test_attesters.py 51-134) -/

def u2fData : Bytes :=
  [0] ++ rpIdHash ++ clientDataHash ++ credentialId ++ ([4] ++ toBE 32 500 ++ toBE 32 501)
def u2fCert : Bytes := certificate (.ec .SECP256R1 500 501) none
def u2fSignature : Bytes := signEc (.ec .SECP256R1 500 501) .SHA256 u2fData

example : raises [.attestation] (run (credentialKey 500) (.fidoU2F [] [[], []])) = true := by
  decide +kernel
example : run (credentialKey 500) (.fidoU2F u2fSignature [u2fCert]) =
    .ok (.BASIC, some [certId u2fCert]) := by decide +kernel
example : raises [.attestation]
    (run (credentialKey 500) (.fidoU2F (utf8Encode "bad-signature") [u2fCert])) = true := by
  decide +kernel
/-- An RSA key. -/
example : raises [.attestation] (run (credentialKey 500)
    (.fidoU2F (signEc (.other 3) .SHA256 u2fData) [certificate (.other 3) none])) = true := by
  decide +kernel
/-- A key on another curve. -/
example : raises [.attestation] (run (credentialKey 500)
    (.fidoU2F (signEc (.ec .SECP384R1 500 501) .SHA256 u2fData)
      [certificate (.ec .SECP384R1 500 501) none])) = true := by
  decide +kernel

/-! `test_attest_android_key` (tests/test_attesters.py 137-345) -/

def androidData : Bytes := authData ++ clientDataHash
def androidCert : Bytes :=
  certificate (.ec .SECP256R1 600 601) (some (androidExtension clientDataHash))
def androidSignature : Bytes := signEc (.ec .SECP256R1 600 601) .SHA256 androidData

example : raises [.attestation] (run (credentialKey 600) (.androidKey (.name .ES256) [] [])) =
    true := by decide +kernel
example : run (credentialKey 600) (.androidKey (.name .ES256) androidSignature [androidCert]) =
    .ok (.BASIC, some [certId androidCert]) := by decide +kernel
example : raises [.attestation] (run (credentialKey 600)
    (.androidKey (.name .ES256) (utf8Encode "bad-signature") [androidCert])) = true := by
  decide +kernel
/-- An RSA key. -/
example : raises [.attestation] (run (credentialKey 600)
    (.androidKey (.name .ES256) (signEc (.other 3) .SHA256 androidData)
      [certificate (.other 3) none])) = true := by
  decide +kernel
/-- A credential key which is not the one of the certificate. -/
example : raises [.attestation] (run (credentialKey 700)
    (.androidKey (.name .ES256) androidSignature [androidCert])) = true := by
  decide +kernel
/-- A certificate without the extension. -/
example : raises [.attestation] (run (credentialKey 600)
    (.androidKey (.name .ES256) androidSignature
      [certificate (.ec .SECP256R1 600 601) none])) = true := by
  decide +kernel
/-- An extension that is not a key description. -/
example : raises [.attestation] (run (credentialKey 600)
    (.androidKey (.name .ES256) androidSignature
      [certificate (.ec .SECP256R1 600 601) (some (utf8Encode "invalid"))])) = true := by
  decide +kernel

def ed25519Raw : Bytes := toBE 32 800
def ed25519Cert : Bytes :=
  certificate (.ed25519 ed25519Raw) (some (androidExtension clientDataHash))

example : run (.okp { kty := .name .OKP } (.name .ED25519) ed25519Raw)
    (.androidKey (.name .ES256) (signEd (.ed25519 ed25519Raw) androidData) [ed25519Cert]) =
    .ok (.BASIC, some [certId ed25519Cert]) := by decide +kernel

def ed448Raw : Bytes := toBE 57 900
def ed448Cert : Bytes :=
  certificate (.ed448 ed448Raw) (some (androidExtension clientDataHash))

example : run (.okp { kty := .name .OKP } (.name .ED448) ed448Raw)
    (.androidKey (.name .ES256) (signEd (.ed448 ed448Raw) androidData) [ed448Cert]) =
    .ok (.BASIC, some [certId ed448Cert]) := by decide +kernel

/-! `test_attest_none` (tests/test_attesters.py 348-350) -/

example (o : AttObjArg) : attest env .none o [] [] = .ok (.NONE, none) := rfl

end WebAuthn.Tests.Attesters
