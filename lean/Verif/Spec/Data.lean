import Mathlib.Data.List.Forall2
import Verif.Spec.Basic

/-!
# Specification of the wire formats

COSE keys, extension outputs, attestation statements, client data,
authenticator data and attestation objects, as relations between a decoded
dictionary (or raw bytes) and the record the caller gets.
-/

namespace WebAuthn.Spec

/-! ## Enumerations (registered integer and text identifiers) -/

/-- COSE algorithm identifiers. -/
def algCode : Alg → Int × String
  | .ES256 => (-7, "ES256")
  | .ES384 => (-35, "ES384")
  | .ES512 => (-36, "ES512")
  | .EDDSA => (-8, "EdDSA")

/-- COSE key types. -/
def ktyCode : KeyType → Int × String
  | .OKP => (1, "OKP")
  | .EC2 => (2, "EC2")
  | .SYMMETRIC => (4, "Symmetric")

/-- COSE key operations. -/
def opCode : KeyOp → Int × String
  | .SIGN => (1, "sign")
  | .VERIFY => (2, "verify")
  | .ENCRYPT => (3, "encrypt")
  | .DECRYPT => (4, "decrypt")
  | .WRAP_KEY => (5, "wrap key")
  | .UNWRAP_KEY => (6, "unwrap key")
  | .DERIVE_KEY => (7, "derive key")
  | .DERIVE_BITS => (8, "derive bits")
  | .MAC_CREATE => (9, "MAC create")
  | .MAC_VERIFY => (10, "MAC verify")

/-- COSE elliptic curves. -/
def crvCode : Curve → Int × String
  | .P_256 => (1, "P-256")
  | .P_384 => (2, "P-384")
  | .P_521 => (3, "P-521")
  | .ED25519 => (6, "Ed25519")
  | .ED448 => (7, "Ed448")

/-- The value `v` (an `int` or a `str`) stands for the member `m`. -/
def Denotes {α : Type} (code : α → Int × String) (v : PyVal) (m : NV α) : Prop :=
  (∃ a, m = .value a ∧ v = .int (code a).1) ∨ (∃ a, m = .name a ∧ v = .str (code a).2)

/-! ## Optional members -/

/-- An optional member: missing (or `None`) for `none`, the encoded value
otherwise. -/
def OptMember {α : Type} (enc : α → PyVal) (d : Dict) (k : Key) : Option α → Prop
  | none => Missing d k
  | some a => Lookup d k (enc a)

/-- A member that is a list or a tuple with the given elements. -/
def SeqMember (d : Dict) (k : Key) (l : List PyVal) : Prop :=
  Lookup d k (.list l) ∨ Lookup d k (.tuple l)

/-! ## COSE keys -/

def IsEc2Curve (c : Curve) : Prop := c = .P_256 ∨ c = .P_384 ∨ c = .P_521
def IsOkpCurve (c : Curve) : Prop := c = .ED25519 ∨ c = .ED448
def IsEcdsaAlg (a : Alg) : Prop := a = .ES256 ∨ a = .ES384 ∨ a = .ES512

/-- Length in bytes of a coordinate (field size for P-*, encoded point for Ed*). -/
def coordLen : Curve → Nat
  | .P_256 => (256 + 7) / 8
  | .P_384 => (384 + 7) / 8
  | .P_521 => (521 + 7) / 8
  | .ED25519 => 32
  | .ED448 => 57

/-- The members common to all COSE keys: kty(1), kid(2), alg(3), key_ops(4),
Base IV(5). -/
def KeyMembers (d : Dict) (b : KeyBase) : Prop :=
  (∃ v, Lookup d (.int 1) v ∧ Denotes ktyCode v b.kty) ∧
  OptMember .bytes d (.int 2) b.kid ∧
  (∃ alg v, b.alg = some alg ∧ Lookup d (.int 3) v ∧ Denotes algCode v alg) ∧
  (match b.keyOps with
    | none => Missing d (.int 4)
    | some ops => ops ≠ [] ∧ ∃ vs, SeqMember d (.int 4) vs ∧ List.Forall₂ (Denotes opCode) vs ops) ∧
  OptMember .bytes d (.int 5) b.baseIV

/-- The dictionary `d` is a COSE key that denotes `k`. -/
def CoseKeyOf (d : Dict) : CPK → Prop
  | .ec2 b x y crv =>
    KeyMembers d b ∧ b.kty.id = .EC2 ∧
    (∃ v, Lookup d (.int (-1)) v ∧ Denotes crvCode v crv) ∧ IsEc2Curve crv.id ∧
    Lookup d (.int (-2)) (.bytes x) ∧ Lookup d (.int (-3)) (.bytes y) ∧
    x.length = coordLen crv.id ∧ y.length = coordLen crv.id
  | .okp b crv x =>
    KeyMembers d b ∧ b.kty.id = .OKP ∧
    (∃ v, Lookup d (.int (-1)) v ∧ Denotes crvCode v crv) ∧ IsOkpCurve crv.id ∧
    Lookup d (.int (-2)) (.bytes x) ∧ x.length = coordLen crv.id
  | .base _ => False

/-- Curve and algorithm belong to the family of the key class. -/
def KeyConsistent : CPK → Prop
  | .ec2 b _ _ crv => b.kty.id = .EC2 ∧ IsEc2Curve crv.id ∧ ∃ a, b.alg = some a ∧ IsEcdsaAlg a.id
  | .okp b crv _ => b.kty.id = .OKP ∧ IsOkpCurve crv.id ∧ ∃ a, b.alg = some a ∧ a.id = .EDDSA
  | .base _ => False

/-! ## Extension outputs -/

def numVal : Num → PyVal
  | .int n => .int n
  | .float f => .float f

/-- The `loc` member: a dictionary of numbers with the coordinate names. -/
def LocOf (d : Dict) (c : Coordinates) : Prop :=
  (∀ kv ∈ d, ∃ n, kv.2 = numVal n) ∧
  OnlyKeys d ["latitude", "longitude", "altitude", "accuracy", "altitudeAccuracy", "heading",
    "speed"] ∧
  OptMember numVal d (.str "latitude") c.latitude ∧
  OptMember numVal d (.str "longitude") c.longitude ∧
  OptMember numVal d (.str "altitude") c.altitude ∧
  OptMember numVal d (.str "accuracy") c.accuracy ∧
  OptMember numVal d (.str "altitudeAccuracy") c.altitudeAccuracy ∧
  OptMember numVal d (.str "heading") c.heading ∧
  OptMember numVal d (.str "speed") c.speed

/-- The dictionary `d` is an extension output map that denotes `e`. -/
def ExtensionsOf (d : Dict) (e : Extensions) : Prop :=
  OnlyKeys d ["appid", "txAuthSimple", "txAuthGeneric", "authnSel", "exts", "uvi", "loc", "uvm",
    "biometricPerfBounds"] ∧
  OptMember .bool d (.str "appid") e.appid ∧
  OptMember .str d (.str "txAuthSimple") e.txAuthSimple ∧
  OptMember .bytes d (.str "txAuthGeneric") e.txAuthGeneric ∧
  OptMember .bool d (.str "authnSel") e.authnSel ∧
  (match e.exts with
    | none => Missing d (.str "exts")
    | some l => SeqMember d (.str "exts") (l.map .str)) ∧
  OptMember .bytes d (.str "uvi") e.uvi ∧
  (match e.loc with
    | none => Missing d (.str "loc")
    | some c => ∃ ld, Lookup d (.str "loc") (.dict ld) ∧ LocOf ld c) ∧
  OptMember (fun l => .list (l.map fun (entry : List Int) => .list (entry.map .int)))
    d (.str "uvm") e.uvm ∧
  OptMember .bool d (.str "biometricPerfBounds") e.biometricPerfBounds

/-- The extension `i` is present with a non-null value in the outputs. -/
def HasExtension (e : Extensions) : ExtId → Prop
  | .APPID => e.appid ≠ none
  | .TX_AUTH_SIMPLE => e.txAuthSimple ≠ none
  | .TX_AUTH_GENERIC => e.txAuthGeneric ≠ none
  | .AUTHN_SEL => e.authnSel ≠ none
  | .EXTS => e.exts ≠ none
  | .UVI => e.uvi ≠ none
  | .LOC => e.loc ≠ none
  | .UVM => e.uvm ≠ none
  | .BIOMETRIC_PERF_BOUNDS => e.biometricPerfBounds ≠ none

/-! ## Attestation statements -/

/-- The `alg` member. -/
def StmtAlg (d : Dict) (alg : NV Alg) : Prop :=
  ∃ v, Lookup d (.str "alg") v ∧ Denotes algCode v alg

/-- The statement map `d` of format `fmt` denotes `s`. -/
def AttStmtOf (fmt : Fmt) (d : Dict) : AttStmt → Prop
  | .packed alg sig => fmt = .PACKED ∧ OnlyKeys d ["alg", "sig"] ∧ StmtAlg d alg ∧
      Lookup d (.str "sig") (.bytes sig)
  | .packedX509 alg sig x5c => fmt = .PACKED ∧ OnlyKeys d ["alg", "sig", "x5c"] ∧
      StmtAlg d alg ∧ Lookup d (.str "sig") (.bytes sig) ∧
      SeqMember d (.str "x5c") (x5c.map .bytes)
  | .packedECDAA alg sig kid => fmt = .PACKED ∧ OnlyKeys d ["alg", "sig", "ecdaaKeyId"] ∧
      StmtAlg d alg ∧ Lookup d (.str "sig") (.bytes sig) ∧
      Lookup d (.str "ecdaaKeyId") (.bytes kid)
  | .tpm alg sig ver ci pa => fmt = .TPM ∧
      OnlyKeys d ["alg", "sig", "ver", "certInfo", "pubArea"] ∧ StmtAlg d alg ∧
      Lookup d (.str "sig") (.bytes sig) ∧ Lookup d (.str "ver") (.str ver) ∧
      Lookup d (.str "certInfo") (.bytes ci) ∧ Lookup d (.str "pubArea") (.bytes pa)
  | .tpmX509 alg sig ver ci pa x5c => fmt = .TPM ∧
      OnlyKeys d ["alg", "sig", "ver", "certInfo", "pubArea", "x5c"] ∧ StmtAlg d alg ∧
      Lookup d (.str "sig") (.bytes sig) ∧ Lookup d (.str "ver") (.str ver) ∧
      Lookup d (.str "certInfo") (.bytes ci) ∧ Lookup d (.str "pubArea") (.bytes pa) ∧
      SeqMember d (.str "x5c") (x5c.map .bytes)
  | .tpmECDAA alg sig ver ci pa kid => fmt = .TPM ∧
      OnlyKeys d ["alg", "sig", "ver", "certInfo", "pubArea", "ecdaaKeyId"] ∧ StmtAlg d alg ∧
      Lookup d (.str "sig") (.bytes sig) ∧ Lookup d (.str "ver") (.str ver) ∧
      Lookup d (.str "certInfo") (.bytes ci) ∧ Lookup d (.str "pubArea") (.bytes pa) ∧
      Lookup d (.str "ecdaaKeyId") (.bytes kid)
  | .androidKey alg sig x5c => fmt = .ANDROID_KEY ∧ OnlyKeys d ["alg", "sig", "x5c"] ∧
      StmtAlg d alg ∧ Lookup d (.str "sig") (.bytes sig) ∧
      SeqMember d (.str "x5c") (x5c.map .bytes)
  | .safetyNet ver response => fmt = .ANDROID_SAFETYNET ∧ OnlyKeys d ["ver", "response"] ∧
      Lookup d (.str "ver") (.str ver) ∧ Lookup d (.str "response") (.bytes response)
  | .fidoU2F sig x5c => fmt = .FIDO_U2F ∧ OnlyKeys d ["sig", "x5c"] ∧
      Lookup d (.str "sig") (.bytes sig) ∧ SeqMember d (.str "x5c") (x5c.map .bytes)
  | .none => fmt = .NONE ∧ d = []

/-- Registered attestation statement format identifiers. -/
def fmtCode : Fmt → String
  | .PACKED => "packed"
  | .TPM => "tpm"
  | .ANDROID_KEY => "android-key"
  | .ANDROID_SAFETYNET => "android-safetynet"
  | .FIDO_U2F => "fido-u2f"
  | .NONE => "none"

/-! ## Client data -/

/-- The client data JSON bytes decode to the object `d`. -/
def ClientJson (env : Env) (cdj : Bytes) (d : Dict) : Prop :=
  ∃ text, Utf8 cdj text ∧ env.jsonLoads text = .ok (.dict d)

/-- The `tokenBinding` member is well formed and denotes `tb`. -/
def TokenBindingMember (d : Dict) : Option ClientTokenBinding → Prop
  | none => Missing d (.str "tokenBinding")
  | some tb => ∃ td, Lookup d (.str "tokenBinding") (.dict td) ∧
      (tb.status = .SUPPORTED ∧ Lookup td (.str "status") (.str "supported") ∨
       tb.status = .PRESENT ∧ Lookup td (.str "status") (.str "present") ∧ tb.id ≠ .none) ∧
      (Lookup td (.str "id") tb.id ∨ Absent td (.str "id") ∧ tb.id = .none)

/-- The bytes `cdj` are client data that denote `cd`. -/
def ClientDataOf (env : Env) (cdj : Bytes) (cd : ClientData) : Prop :=
  ∃ d, ClientJson env cdj d ∧
    Lookup d (.str "type") (.str cd.type) ∧
    Lookup d (.str "challenge") (.str cd.challenge) ∧
    Lookup d (.str "origin") (.str cd.origin) ∧
    TokenBindingMember d cd.tokenBinding

/-! ## Authenticator data -/

/-- Big-endian value of a byte string. -/
inductive BigEndian : Bytes → Nat → Prop
  | nil : BigEndian [] 0
  | snoc (b : Bytes) (n : Nat) (x : UInt8) : BigEndian b n → BigEndian (b ++ [x]) (256 * n + x.toNat)

/-- Attested credential data: AAGUID, length, id, one CBOR map. -/
def AttestedOf (env : Env) (bytes rest : Bytes) (a : AttestedCredentialData) : Prop :=
  ∃ len tail d k,
    bytes = a.aaguid ++ len ++ a.credentialId ++ tail ∧
    a.aaguid.length = 16 ∧ len.length = 2 ∧ BigEndian len a.credentialId.length ∧
    a.credentialIdLength = a.credentialId.length ∧
    env.cborLoad tail = .ok (.dict d, rest) ∧
    a.credentialPublicKey = some k ∧ CoseKeyOf d k ∧ KeyConsistent k

/-- Extension data: one CBOR map. -/
def ExtDataOf (env : Env) (bytes rest : Bytes) (e : Extensions) : Prop :=
  ∃ d, env.cborLoad bytes = .ok (.dict d, rest) ∧ ExtensionsOf d e

/-- The optional block controlled by bit `i` of the flag byte. -/
def Block {α : Type} (flags : UInt8) (i : Nat) (R : Bytes → Bytes → α → Prop)
    (bytes rest : Bytes) : Option α → Prop
  | none => flags.toNat.testBit i = false ∧ bytes = rest
  | some a => flags.toNat.testBit i = true ∧ R bytes rest a

/-- The bytes `raw` are authenticator data that denote `ad`: 32 bytes RP id hash,
one flag byte, 4 bytes counter, attested credential data iff bit 6, extensions
iff bit 7, and nothing else. -/
def AuthDataOf (env : Env) (raw : Bytes) (ad : AuthData) : Prop :=
  ∃ flags count body mid,
    raw = ad.rpIdHash ++ [flags] ++ count ++ body ∧
    ad.rpIdHash.length = 32 ∧ ad.flags = flags.toNat ∧
    count.length = 4 ∧ BigEndian count ad.signCount ∧
    Block flags 6 (AttestedOf env) body mid ad.attested ∧
    Block flags 7 (ExtDataOf env) mid [] ad.extensions

/-! ## Attestation objects -/

/-- The bytes `b` start with a CBOR attestation object that denotes `o`, whose
raw authenticator data is `raw`. -/
def AttObjOf (env : Env) (b : Bytes) (o : AttestationObject) (raw : Bytes) : Prop :=
  ∃ d rest sd, env.cborLoad b = .ok (.dict d, rest) ∧
    Lookup d (.str "authData") (.bytes raw) ∧ AuthDataOf env raw o.authData ∧
    Lookup d (.str "fmt") (.str (fmtCode o.fmt)) ∧
    Lookup d (.str "attStmt") (.dict sd) ∧ AttStmtOf o.fmt sd o.attStmt

end WebAuthn.Spec
