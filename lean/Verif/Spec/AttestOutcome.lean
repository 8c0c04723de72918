import Verif.Spec.Repaired
import Verif.Spec.Outcome

/-!
# The outcome of `attest`

Which exception `attest` raises for an attestation object, in every case: the
formats it implements check in this order.
-/

namespace WebAuthn.Spec

/-- A FIDO U2F statement is refused. -/
inductive U2FRefused (env : Env) (sig : Bytes) (ad : AuthData) (hash : Bytes) :
    List Bytes → Exc → Prop
  | path (x5c : List Bytes) : x5c.length ≠ 1 → U2FRefused env sig ad hash x5c (.lib .attestation)
  | cert (b : Bytes) (e x : Exc) : env.loadCert b = .error e →
      Translated [.ValueError] .attestation e x → U2FRefused env sig ad hash [b] x
  | certKey (b : Bytes) (c : Cert) (e : Exc) : env.loadCert b = .ok c →
      c.publicKey = .error e → U2FRefused env sig ad hash [b] e
  | curve (b : Bytes) (c : Cert) (pk : CryptoKey) : env.loadCert b = .ok c →
      c.publicKey = .ok pk → (∀ x y, pk ≠ .ec .SECP256R1 x y) →
      U2FRefused env sig ad hash [b] (.lib .attestation)
  | noKey (b : Bytes) (c : Cert) (x y : Nat) : env.loadCert b = .ok c →
      c.publicKey = .ok (.ec .SECP256R1 x y) →
      (∀ acd k, ad.attested = some acd → acd.credentialPublicKey ≠ some k) →
      U2FRefused env sig ad hash [b] .assertionError
  | otherKey (b : Bytes) (c : Cert) (x y : Nat) (acd : AttestedCredentialData) (k : CPK) :
      env.loadCert b = .ok c → c.publicKey = .ok (.ec .SECP256R1 x y) → ad.attested = some acd →
      acd.credentialPublicKey = some k → (∀ kb kx ky crv, k ≠ .ec2 kb kx ky crv) →
      U2FRefused env sig ad hash [b] .attributeError
  | signature (b : Bytes) (c : Cert) (x y : Nat) (acd : AttestedCredentialData) (kb : KeyBase)
      (kx ky : Bytes) (crv : NV Curve) (e z : Exc) :
      env.loadCert b = .ok c → c.publicKey = .ok (.ec .SECP256R1 x y) → ad.attested = some acd →
      acd.credentialPublicKey = some (.ec2 kb kx ky crv) →
      env.ecdsaVerify (.ec .SECP256R1 x y) .SHA256 sig
        ([0x00] ++ ad.rpIdHash ++ hash ++ acd.credentialId ++ [0x04] ++ kx ++ ky) = .error e →
      Translated [.InvalidSignature] .attestation e z → U2FRefused env sig ad hash [b] z

/-- The key object of a certificate does not verify the signature. -/
inductive CertSignatureRefused (env : Env) (alg : Alg) (sig data : Bytes) : CryptoKey → Exc → Prop
  | noHash (c : CurveClass) (x y : Nat) : (∀ h, ¬ EcdsaHash alg h) →
      CertSignatureRefused env alg sig data (.ec c x y) .assertionError
  | ec (c : CurveClass) (x y : Nat) (h : HashAlg) (e z : Exc) : EcdsaHash alg h →
      env.ecdsaVerify (.ec c x y) h sig data = .error e →
      Translated [.InvalidSignature] .attestation e z →
      CertSignatureRefused env alg sig data (.ec c x y) z
  | ed25519 (raw : Bytes) (e z : Exc) : env.eddsaVerify (.ed25519 raw) sig data = .error e →
      Translated [.InvalidSignature] .attestation e z →
      CertSignatureRefused env alg sig data (.ed25519 raw) z
  | ed448 (raw : Bytes) (e z : Exc) : env.eddsaVerify (.ed448 raw) sig data = .error e →
      Translated [.InvalidSignature] .attestation e z →
      CertSignatureRefused env alg sig data (.ed448 raw) z

/-- The certificate has an EC or Edwards key and the authenticator data have a
credential key. -/
def AndroidKeys (env : Env) (b : Bytes) (ad : AuthData) (c : Cert) (pk : CryptoKey) (k : CPK) :
    Prop :=
  env.loadCert b = .ok c ∧ c.publicKey = .ok pk ∧ (∀ n, pk ≠ .other n) ∧
  ∃ acd, ad.attested = some acd ∧ acd.credentialPublicKey = some k

/-- An Android key statement is refused. -/
inductive AndroidRefused (env : Env) (alg : Alg) (sig : Bytes) (ad : AuthData) (raw hash : Bytes) :
    List Bytes → Exc → Prop
  | path : AndroidRefused env alg sig ad raw hash [] (.lib .attestation)
  | cert (b : Bytes) (l : List Bytes) (e : Exc) : env.loadCert b = .error e →
      AndroidRefused env alg sig ad raw hash (b :: l) e
  | certKey (b : Bytes) (l : List Bytes) (c : Cert) (e : Exc) : env.loadCert b = .ok c →
      c.publicKey = .error e → AndroidRefused env alg sig ad raw hash (b :: l) e
  | kind (b : Bytes) (l : List Bytes) (c : Cert) (n : Nat) : env.loadCert b = .ok c →
      c.publicKey = .ok (.other n) →
      AndroidRefused env alg sig ad raw hash (b :: l) (.lib .attestation)
  | notAttested (b : Bytes) (l : List Bytes) (c : Cert) (pk : CryptoKey) :
      env.loadCert b = .ok c → c.publicKey = .ok pk → (∀ n, pk ≠ .other n) → ad.attested = none →
      AndroidRefused env alg sig ad raw hash (b :: l) .assertionError
  | noKey (b : Bytes) (l : List Bytes) (c : Cert) (pk : CryptoKey) (acd : AttestedCredentialData) :
      env.loadCert b = .ok c → c.publicKey = .ok pk → (∀ n, pk ≠ .other n) →
      ad.attested = some acd → acd.credentialPublicKey = none →
      AndroidRefused env alg sig ad raw hash (b :: l) (.lib .unimplemented)
  | key (b : Bytes) (l : List Bytes) (c : Cert) (pk : CryptoKey) (k : CPK) (x : Exc) :
      AndroidKeys env b ad c pk k → KeyRefused env k x →
      AndroidRefused env alg sig ad raw hash (b :: l) x
  | signature (b : Bytes) (l : List Bytes) (c : Cert) (pk : CryptoKey) (k : CPK) (cpk : CryptoKey)
      (x : Exc) : AndroidKeys env b ad c pk k → KeyOf env k cpk →
      CertSignatureRefused env alg sig (raw ++ hash) pk x →
      AndroidRefused env alg sig ad raw hash (b :: l) x
  | otherKey (b : Bytes) (l : List Bytes) (c : Cert) (pk : CryptoKey) (k : CPK)
      (cpk : CryptoKey) : AndroidKeys env b ad c pk k → KeyOf env k cpk →
      CertSigned env alg sig (raw ++ hash) pk → env.spki cpk ≠ env.spki pk →
      AndroidRefused env alg sig ad raw hash (b :: l) (.lib .attestation)
  | extension (b : Bytes) (l : List Bytes) (c : Cert) (pk : CryptoKey) (k : CPK) (cpk : CryptoKey)
      (e z : Exc) : AndroidKeys env b ad c pk k → KeyOf env k cpk →
      CertSigned env alg sig (raw ++ hash) pk → env.spki cpk = env.spki pk →
      c.keyAttestationExt = .error e → Translated [.ExtensionNotFound] .attestation e z →
      AndroidRefused env alg sig ad raw hash (b :: l) z
  | recognised (b : Bytes) (l : List Bytes) (c : Cert) (pk : CryptoKey) (k : CPK)
      (cpk : CryptoKey) : AndroidKeys env b ad c pk k → KeyOf env k cpk →
      CertSigned env alg sig (raw ++ hash) pk → env.spki cpk = env.spki pk →
      c.keyAttestationExt = .ok none →
      AndroidRefused env alg sig ad raw hash (b :: l) .assertionError
  | notDer (b : Bytes) (l : List Bytes) (c : Cert) (pk : CryptoKey) (k : CPK) (cpk : CryptoKey)
      (ext : Bytes) (e z : Exc) : AndroidKeys env b ad c pk k → KeyOf env k cpk →
      CertSigned env alg sig (raw ++ hash) pk → env.spki cpk = env.spki pk →
      c.keyAttestationExt = .ok (some ext) → env.decodeDer Asn1.keyDescription ext = .error e →
      Translated [.PyAsn1Error] .attestation e z →
      AndroidRefused env alg sig ad raw hash (b :: l) z
  | description (b : Bytes) (l : List Bytes) (c : Cert) (pk : CryptoKey) (k : CPK)
      (cpk : CryptoKey) (ext : Bytes) (kd : Asn1.Val) : AndroidKeys env b ad c pk k →
      KeyOf env k cpk → CertSigned env alg sig (raw ++ hash) pk → env.spki cpk = env.spki pk →
      c.keyAttestationExt = .ok (some ext) → env.decodeDer Asn1.keyDescription ext = .ok kd →
      ¬ KeyDescriptionOk kd hash →
      AndroidRefused env alg sig ad raw hash (b :: l) (.lib .attestation)

/-- A statement is refused. -/
inductive AttestRefused (env : Env) (ad : AuthData) (raw hash : Bytes) : AttStmt → Exc → Prop
  | unimplemented (s : AttStmt) : s ≠ .none → (∀ sig x5c, s ≠ .fidoU2F sig x5c) →
      (∀ alg sig x5c, s ≠ .androidKey alg sig x5c) →
      AttestRefused env ad raw hash s (.lib .unimplemented)
  | u2f (sig : Bytes) (x5c : List Bytes) (x : Exc) : U2FRefused env sig ad hash x5c x →
      AttestRefused env ad raw hash (.fidoU2F sig x5c) x
  | android (alg : NV Alg) (sig : Bytes) (x5c : List Bytes) (x : Exc) :
      AndroidRefused env alg.id sig ad raw hash x5c x →
      AttestRefused env ad raw hash (.androidKey alg sig x5c) x

/-! ## Registration with the attestation object passed to `attest` -/

/-- A registration is refused by the repaired backend, with the exception before
it is reported.  `ids`: the raw id is compared with the attested one. -/
inductive RepairedRefused (ids : Bool) (env : Env) (a : AttestationArgs) : Exc → Prop
  | ceremony (x : Exc) : RegistrationRefused env a x →
      (ExpectedOk env a.expectedOrigin → ∀ o raw, ¬ AttestationOk env a o raw) →
      RepairedRefused ids env a x
  | rawId (o : AttestationObject) (raw : Bytes) : ExpectedOk env a.expectedOrigin →
      AttestationOk env a o raw → ids = true → ¬ RawIdAttests a.credential o.authData →
      RepairedRefused ids env a (.lib .attestation)
  | statement (o : AttestationObject) (raw cdj ob : Bytes) (x : Exc) :
      ExpectedOk env a.expectedOrigin → a.credential.response = .attestation cdj ob →
      AttestationOk env a o raw → (ids = true → RawIdAttests a.credential o.authData) →
      AttestRefused env o.authData raw (env.sha256 cdj) o.attStmt x → RepairedRefused ids env a x

/-- The outcome of a registration with the repaired backend. -/
inductive RepairedOutcome {σ : Type} (ids : Bool) (env : Env) (reg : Registrar σ)
    (a : AttestationArgs) (s : σ) : Py Unit → σ → Prop
  | refused (x y : Exc) : RepairedRefused ids env a x → Reported x y →
      RepairedOutcome ids env reg a s (.error y) s
  | written (o : AttestationObject) (raw cdj ob : Bytes) (t : AttestationType) (p : TrustedPath)
      (w : Py (Option String)) (s' : σ) (r : Py Unit) : ExpectedOk env a.expectedOrigin →
      a.credential.response = .attestation cdj ob → AttestationOk env a o raw →
      (ids = true → RawIdAttests a.credential o.authData) →
      StatementShows env o.authData raw (env.sha256 cdj) o.attStmt t p →
      reg.registerAttestation ⟨a.credential, o, t, a.user, a.rp, p⟩ s = (w, s') →
      Wrote w r → RepairedOutcome ids env reg a s r s'

end WebAuthn.Spec
