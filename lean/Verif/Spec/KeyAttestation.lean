import Verif.Spec.Der

/-!
# Specification of the Android key attestation extension

The schema of the extension 1.3.6.1.4.1.11129.2.1.17 in the Android documentation
(source.android.com/docs/security/features/keystore/attestation), version 3, by
tag numbers.
-/

namespace WebAuthn.Spec

open WebAuthn.Asn1

/-- `RootOfTrust`: verifiedBootKey, deviceLocked, verifiedBootState,
verifiedBootHash. -/
def RootOfTrust (v : Val) (b : Bytes) : Prop :=
  ∃ key locked state hash k l s h, v = .sequence [("verifiedBootKey", .octets key),
      ("deviceLocked", .boolean locked), ("verifiedBootState", .enumerated state),
      ("verifiedBootHash", .octets hash)] ∧
    Der .octetString (.octets key) k ∧ Der .boolean (.boolean locked) l ∧
    Der .enumerated (.enumerated state) s ∧ Der .octetString (.octets hash) h ∧
    Tlv 0 true 16 (k ++ l ++ s ++ h) b

/-- The tags of the authorization list whose values are integers. -/
def integerTags : List Nat :=
  [2, 3, 10, 200, 400, 401, 402, 504, 505, 701, 702, 705, 706, 718, 719]

/-- Those whose values are sets of integers: purpose, digest, padding. -/
def setTags : List Nat := [1, 5, 6]

/-- Those that are there or not. -/
def nullTags : List Nat := [303, 503, 506, 507, 508, 509, 600, 703]

/-- Those whose values are octet strings. -/
def octetTags : List Nat := [601, 709, 710, 711, 712, 713, 714, 715, 716, 717]

/-- `b` encodes the value of the authorization with this tag. -/
inductive Authorization : Nat → Val → Bytes → Prop
  | integer (t : Nat) (v : Val) (b : Bytes) : t ∈ integerTags → Der .integer v b → Authorization t v b
  | set (t : Nat) (v : Val) (b : Bytes) : t ∈ setTags → Der (.setOf .integer) v b → Authorization t v b
  | null (t : Nat) (v : Val) (b : Bytes) : t ∈ nullTags → Der .null v b → Authorization t v b
  | octets (t : Nat) (v : Val) (b : Bytes) : t ∈ octetTags → Der .octetString v b → Authorization t v b
  | rootOfTrust (v : Val) (b : Bytes) : RootOfTrust v b → Authorization 704 v b

/-- An authorization list: tags and values, in the order of the tags. -/
abbrev AuthList := List (Nat × Val)

/-- `b` encodes the list: each value has an explicit tag of the context class. -/
def AuthListOf (es : AuthList) (b : Bytes) : Prop :=
  es.Pairwise (fun e e' => e.1 < e'.1) ∧ ∃ parts,
    List.Forall₂ (fun e p => ∃ inner, Authorization e.1 e.2 inner ∧ Tlv 2 true e.1 inner p) es parts ∧
    Tlv 0 true 16 parts.flatten b

/-- The parts of a key description. -/
structure KeyDesc where
  attestationVersion : Int
  attestationSecurityLevel : Int
  keymasterVersion : Int
  keymasterSecurityLevel : Int
  challenge : Bytes
  uniqueId : Bytes
  software : AuthList
  tee : AuthList

/-- `b` encodes the key description. -/
def KeyDescriptionOf (d : KeyDesc) (b : Bytes) : Prop :=
  ∃ b1 b2 b3 b4 b5 b6 b7 b8,
    Der .integer (.integer d.attestationVersion) b1 ∧
    Der .enumerated (.enumerated d.attestationSecurityLevel) b2 ∧
    Der .integer (.integer d.keymasterVersion) b3 ∧
    Der .enumerated (.enumerated d.keymasterSecurityLevel) b4 ∧
    Der .octetString (.octets d.challenge) b5 ∧ Der .octetString (.octets d.uniqueId) b6 ∧
    AuthListOf d.software b7 ∧ AuthListOf d.tee b8 ∧
    Tlv 0 true 16 (b1 ++ b2 ++ b3 ++ b4 ++ b5 ++ b6 ++ b7 ++ b8) b

/-- WebAuthn 8.4 on the parts: the challenge is the hash of the client data, the
key is not for all applications (600), the trusted environment generated it (702,
`KM_ORIGIN_GENERATED` 0) and it is for signing (1, `KM_PURPOSE_SIGN` 2). -/
def KeyDesc.Ok (d : KeyDesc) (hash : Bytes) : Prop :=
  d.challenge = hash ∧ (∀ v, (600, v) ∉ d.software) ∧ (∀ v, (600, v) ∉ d.tee) ∧
  (702, .integer 0) ∈ d.tee ∧ ∃ l, (1, .set l) ∈ d.tee ∧ .integer 2 ∈ l

end WebAuthn.Spec
