import Verif.Spec.Laws

/-!
# Honest encodings

What authenticators and browsers send, for the round-trip and end-to-end
properties.
-/

namespace WebAuthn.Spec

/-- `b` is the CBOR encoding of a map that denotes the credential key `k`. -/
def EncodedKey (env : Env) (k : CPK) (b : Bytes) : Prop :=
  ∃ d, CoseKeyOf d k ∧ KeyConsistent k ∧ Plain (.dict d) ∧ env.cborDumps (.dict d) = .ok b

/-- `b` is the CBOR encoding of a map that denotes the extension outputs `e`. -/
def EncodedExtensions (env : Env) (e : Extensions) (b : Bytes) : Prop :=
  ∃ d, ExtensionsOf d e ∧ Plain (.dict d) ∧ env.cborDumps (.dict d) = .ok b

/-- AAGUID, two bytes of length, credential id, key. -/
def EncodedAttested (env : Env) (a : AttestedCredentialData) (b : Bytes) : Prop :=
  ∃ len k kb, b = a.aaguid ++ len ++ a.credentialId ++ kb ∧ a.aaguid.length = 16 ∧
    len.length = 2 ∧ BigEndian len a.credentialId.length ∧
    a.credentialIdLength = a.credentialId.length ∧ a.credentialPublicKey = some k ∧
    EncodedKey env k kb

/-- An optional block: nothing, or the encoding of the value; the flag bit says
which. -/
def EncodedBlock {α : Type} (flags : UInt8) (i : Nat) (R : α → Bytes → Prop) (b : Bytes) :
    Option α → Prop
  | none => flags.toNat.testBit i = false ∧ b = []
  | some a => flags.toNat.testBit i = true ∧ R a b

/-- `raw` is the encoding of the authenticator data `ad`. -/
def EncodedAuthData (env : Env) (ad : AuthData) (raw : Bytes) : Prop :=
  ∃ flags count att ext, raw = ad.rpIdHash ++ [flags] ++ count ++ att ++ ext ∧
    ad.rpIdHash.length = 32 ∧ ad.flags = flags.toNat ∧
    count.length = 4 ∧ BigEndian count ad.signCount ∧
    EncodedBlock flags 6 (EncodedAttested env) att ad.attested ∧
    EncodedBlock flags 7 (EncodedExtensions env) ext ad.extensions

/-- `b` is the CBOR encoding of an attestation object with `none` attestation. -/
def EncodedNoneAttestation (env : Env) (raw b : Bytes) : Prop :=
  ∃ d, Lookup d (.str "fmt") (.str "none") ∧ Lookup d (.str "attStmt") (.dict []) ∧
    Lookup d (.str "authData") (.bytes raw) ∧ Plain (.dict d) ∧
    env.cborDumps (.dict d) = .ok b

/-- `cdj` is client data (Web Authentication, section 5.8.1): a JSON object in UTF-8
with these members, and any others. -/
def ClientDataText (type challenge origin : String) (tb : Option ClientTokenBinding) (cdj : Bytes) :
    Prop :=
  ∃ text d, Utf8 cdj text ∧ JsonText text (.dict d) ∧ Lookup d (.str "type") (.str type) ∧
    Lookup d (.str "challenge") (.str challenge) ∧ Lookup d (.str "origin") (.str origin) ∧
    TokenBindingMember d tb

end WebAuthn.Spec
