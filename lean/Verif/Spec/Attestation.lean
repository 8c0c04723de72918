import Verif.Spec.Ceremony

/-!
# Specification of the attestation statement formats

When a statement is valid (Web Authentication Level 1, sections 8.4, 8.6, 8.7).
-/

namespace WebAuthn.Spec

/-- The FIDO U2F statement `(sig, x5c)` is valid for the authenticator data and
the client data hash: one certificate, with a P-256 key that verifies the U2F
registration message. -/
def U2FOk (env : Env) (sig : Bytes) (x5c : List Bytes) (ad : AuthData) (hash : Bytes)
    (cert : Cert) : Prop :=
  ∃ certBytes cx cy acd b x y crv, x5c = [certBytes] ∧ env.loadCert certBytes = .ok cert ∧
    cert.publicKey = .ok (.ec .SECP256R1 cx cy) ∧
    ad.attested = some acd ∧ acd.credentialPublicKey = some (.ec2 b x y crv) ∧
    env.ecdsaVerify (.ec .SECP256R1 cx cy) .SHA256 sig
      ([0x00] ++ ad.rpIdHash ++ hash ++ acd.credentialId ++ [0x04] ++ x ++ y) = .ok ()

/-- The key object `pk` of a certificate verifies `sig` over `data`; EC keys use
the hash that `alg` names. -/
inductive CertSigned (env : Env) (alg : Alg) (sig data : Bytes) : CryptoKey → Prop
  | ec (c : CurveClass) (x y : Nat) (h : HashAlg) : EcdsaHash alg h →
      env.ecdsaVerify (.ec c x y) h sig data = .ok () → CertSigned env alg sig data (.ec c x y)
  | ed25519 (raw : Bytes) : env.eddsaVerify (.ed25519 raw) sig data = .ok () →
      CertSigned env alg sig data (.ed25519 raw)
  | ed448 (raw : Bytes) : env.eddsaVerify (.ed448 raw) sig data = .ok () →
      CertSigned env alg sig data (.ed448 raw)

/-- The value has a component, reached by these names, which is `w`. -/
def Component : Asn1.Val → List String → Asn1.Val → Prop
  | v, [], w => v = w
  | v, name :: path, w => ∃ cs u, v = .sequence cs ∧ cs.lookup name = some u ∧ Component u path w

/-- The key description binds the key to this ceremony and to the secure
hardware: challenge, not for all applications, generated there (0), for signing
(2). -/
def KeyDescriptionOk (kd : Asn1.Val) (hash : Bytes) : Prop :=
  Component kd ["attestationChallenge"] (.octets hash) ∧
  (∀ w, ¬ Component kd ["softwareEnforced", "allApplications"] w) ∧
  (∀ w, ¬ Component kd ["teeEnforced", "allApplications"] w) ∧
  Component kd ["teeEnforced", "origin"] (.integer 0) ∧
  ∃ l, Component kd ["teeEnforced", "purpose"] (.set l) ∧ .integer 2 ∈ l

/-- The Android key statement is valid. -/
def AndroidOk (env : Env) (alg : Alg) (sig : Bytes) (x5c : List Bytes) (ad : AuthData)
    (raw hash : Bytes) (cert : Cert) : Prop :=
  ∃ certBytes others pk acd k cpk ext kd, x5c = certBytes :: others ∧
    env.loadCert certBytes = .ok cert ∧ cert.publicKey = .ok pk ∧
    CertSigned env alg sig (raw ++ hash) pk ∧
    ad.attested = some acd ∧ acd.credentialPublicKey = some k ∧ KeyOf env k cpk ∧
    env.spki cpk = env.spki pk ∧
    cert.keyAttestationExt = .ok (some ext) ∧ env.decodeDer Asn1.keyDescription ext = .ok kd ∧
    KeyDescriptionOk kd hash

/-- The statement is valid in one of the formats that the package implements. -/
def StatementOk (env : Env) (s : AttStmt) (ad : AuthData) (raw hash : Bytes) : Prop :=
  s = .none ∨ (∃ sig x5c cert, s = .fidoU2F sig x5c ∧ U2FOk env sig x5c ad hash cert) ∨
  (∃ alg sig x5c cert, s = .androidKey alg sig x5c ∧
    AndroidOk env alg.id sig x5c ad raw hash cert)

end WebAuthn.Spec
