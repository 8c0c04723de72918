import Verif.Spec.Attestation
import Verif.Spec.KeyAttestation
import Verif.Model.Attesters

/-!
# Specification of Android key statements, to the letter

What WebAuthn 8.4 asks for beyond `AndroidOk`: the attestation trust path is `x5c`, the signature is
one of the algorithm `alg`, and the purpose of the key is equal to `KM_PURPOSE_SIGN`.
-/

namespace WebAuthn.Spec

/-- A function like `attest`. -/
abbrev Attester := Env → AttStmt → AttObjArg → Bytes → Bytes → Py (AttestationType × TrustedPath)

/-- The certificates that the statement carries, if it is of a kind that carries any. -/
inductive Carries : AttStmt → List Bytes → Prop
  | fidoU2F (sig : Bytes) (x5c : List Bytes) : Carries (.fidoU2F sig x5c) x5c
  | androidKey (alg : NV Alg) (sig : Bytes) (x5c : List Bytes) : Carries (.androidKey alg sig x5c) x5c

/-- The certificates that these bytes are, in their order. -/
def ChainOf (env : Env) (x5c : List Bytes) (certs : List Cert) : Prop :=
  List.Forall₂ (fun b c => env.loadCert b = .ok c) x5c certs

/-- The trust path of an accepted statement is the chain of certificates it carries. -/
def PathIsChain (attest : Attester) (env : Env) : Prop :=
  ∀ s x5c o raw hash ty path, Carries s x5c → attest env s (.attObj o) raw hash = .ok (ty, path) →
    ∃ certs, path = some certs ∧ ChainOf env x5c certs

/-- `sig` is a signature of the algorithm over `data` by the key. -/
inductive SignedWith (env : Env) : (alg : Alg) → (sig data : Bytes) → CryptoKey → Prop
  | ecdsa (alg : Alg) (h : HashAlg) (sig data : Bytes) (c : CurveClass) (x y : Nat) :
      EcdsaHash alg h → env.ecdsaVerify (.ec c x y) h sig data = .ok () →
      SignedWith env alg sig data (.ec c x y)
  | ed25519 (sig data raw : Bytes) : env.eddsaVerify (.ed25519 raw) sig data = .ok () →
      SignedWith env .EDDSA sig data (.ed25519 raw)
  | ed448 (sig data raw : Bytes) : env.eddsaVerify (.ed448 raw) sig data = .ok () →
      SignedWith env .EDDSA sig data (.ed448 raw)

/-- The purposes of the key, in the trusted environment, are signing and nothing else. -/
def SignOnly (kd : Asn1.Val) : Prop :=
  ∃ l, Component kd ["teeEnforced", "purpose"] (.set l) ∧ l ≠ [] ∧ ∀ p ∈ l, p = .integer 2

/-- An accepted Android key statement is signed with the algorithm that it names. -/
def AlgorithmUsed (attest : Attester) (env : Env) : Prop :=
  ∀ alg sig b rest o raw hash r,
    attest env (.androidKey alg sig (b :: rest)) (.attObj o) raw hash = .ok r →
    ∃ cert pk, env.loadCert b = .ok cert ∧ cert.publicKey = .ok pk ∧
      SignedWith env alg.id sig (raw ++ hash) pk

/-- The key of an accepted Android key statement is for signing only. -/
def PurposeIsSigning (attest : Attester) (env : Env) : Prop :=
  ∀ alg sig b rest o raw hash r,
    attest env (.androidKey alg sig (b :: rest)) (.attObj o) raw hash = .ok r →
    ∃ cert ext kd, env.loadCert b = .ok cert ∧ cert.keyAttestationExt = .ok (some ext) ∧
      env.decodeDer Asn1.keyDescription ext = .ok kd ∧ SignOnly kd

/-- The Android key statement is valid, to the letter. -/
def AndroidStrict (env : Env) (alg : Alg) (sig : Bytes) (x5c : List Bytes) (ad : AuthData)
    (raw hash : Bytes) (certs : List Cert) : Prop :=
  ChainOf env x5c certs ∧ ∃ cert others pk acd k cpk ext kd, certs = cert :: others ∧
    cert.publicKey = .ok pk ∧ SignedWith env alg sig (raw ++ hash) pk ∧
    ad.attested = some acd ∧ acd.credentialPublicKey = some k ∧ KeyOf env k cpk ∧
    env.spki cpk = env.spki pk ∧
    cert.keyAttestationExt = .ok (some ext) ∧ env.decodeDer Asn1.keyDescription ext = .ok kd ∧
    KeyDescriptionOk kd hash ∧ SignOnly kd

/-- The statement is valid, to the letter for Android keys, and shows this attestation type and this
trust path. -/
inductive StrictlyShows (env : Env) (ad : AuthData) (raw hash : Bytes) :
    AttStmt → AttestationType → TrustedPath → Prop
  | none : StrictlyShows env ad raw hash .none .NONE none
  | fidoU2F (sig : Bytes) (x5c : List Bytes) (cert : Cert) : U2FOk env sig x5c ad hash cert →
      StrictlyShows env ad raw hash (.fidoU2F sig x5c) .BASIC (some [cert])
  | androidKey (alg : NV Alg) (sig : Bytes) (x5c : List Bytes) (certs : List Cert) :
      AndroidStrict env alg.id sig x5c ad raw hash certs →
      StrictlyShows env ad raw hash (.androidKey alg sig x5c) .BASIC (some certs)

/-- The parts of a key description that is for signing only. -/
def KeyDesc.SignOnly (d : KeyDesc) : Prop :=
  ∃ l, (1, .set l) ∈ d.tee ∧ l ≠ [] ∧ ∀ p ∈ l, p = .integer 2

end WebAuthn.Spec
