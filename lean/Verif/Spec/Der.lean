import Verif.Spec.Data
import Verif.Model.Env

/-!
# Specification of DER (ITU-T X.690)

The distinguished encoding of the values of the ASN.1 types that `asn1.py` uses.
The elements of a set may come in any order here.
-/

namespace WebAuthn.Spec

open WebAuthn.Asn1

/-- The first identifier octet: class (0 universal, 2 context), whether the
encoding is constructed, five bits. -/
def firstOctet (cls : Nat) (constructed : Bool) (n : Nat) : UInt8 :=
  .ofNat (64 * cls + (if constructed then 32 else 0) + n)

/-- The number with these digits to the base 128, the first being the most
significant. -/
inductive Base128 : List Nat → Nat → Prop
  | nil : Base128 [] 0
  | snoc (ds : List Nat) (n d : Nat) : Base128 ds n → d < 128 → Base128 (ds ++ [d]) (128 * n + d)

/-- The identifier octets (8.1.2) of the tag with the number `n`. -/
inductive Identifier (cls : Nat) (constructed : Bool) : Nat → Bytes → Prop
  | low (n : Nat) : n < 31 → Identifier cls constructed n [firstOctet cls constructed n]
  | high (n : Nat) (ds : List Nat) (d : Nat) : 31 ≤ n → Base128 (ds ++ [d]) n →
      ds.head? ≠ some 0 → Identifier cls constructed n
        (firstOctet cls constructed 31 :: ds.map (fun x => UInt8.ofNat (128 + x)) ++ [UInt8.ofNat d])

/-- The length octets (8.1.3, 10.1): one octet, or as few as possible after their
number. -/
inductive LengthOctets : Nat → Bytes → Prop
  | short (n : Nat) : n < 128 → LengthOctets n [UInt8.ofNat n]
  | long (n : Nat) (b : Bytes) : 128 ≤ n → b.length < 127 → BigEndian b n → b.head? ≠ some 0 →
      LengthOctets n (UInt8.ofNat (128 + b.length) :: b)

/-- Identifier, length and contents octets. -/
def Tlv (cls : Nat) (constructed : Bool) (n : Nat) (contents b : Bytes) : Prop :=
  ∃ i l, Identifier cls constructed n i ∧ LengthOctets contents.length l ∧ b = i ++ l ++ contents

/-- The contents octets of an integer (8.3): two's complement, as short as
possible. -/
inductive IntegerOctets : Int → Bytes → Prop
  | positive (x : UInt8) (r : Bytes) (n : Nat) : x.toNat < 128 → BigEndian (x :: r) n →
      (∀ y s, r = y :: s → x = 0 → 128 ≤ y.toNat) → IntegerOctets n (x :: r)
  | negative (x : UInt8) (r : Bytes) (n : Nat) : 128 ≤ x.toNat → BigEndian (x :: r) n →
      (∀ y s, r = y :: s → x = 255 → y.toNat < 128) →
      IntegerOctets ((n : Int) - 256 ^ (r.length + 1)) (x :: r)

mutual

/-- `b` is the encoding of the value of the type. -/
def Der : Ty → Val → Bytes → Prop
  | .integer, v, b => ∃ n c, v = .integer n ∧ IntegerOctets n c ∧ Tlv 0 false 2 c b
  | .boolean, v, b => ∃ x, v = .boolean x ∧ Tlv 0 false 1 [if x then 0xff else 0x00] b
  | .enumerated, v, b => ∃ n c, v = .enumerated n ∧ IntegerOctets n c ∧ Tlv 0 false 10 c b
  | .octetString, v, b => ∃ o, v = .octets o ∧ Tlv 0 false 4 o b
  | .null, v, b => v = .null ∧ Tlv 0 false 5 [] b
  | .setOf t, v, b => ∃ l parts, v = .set l ∧ List.Forall₂ (Der t) l parts ∧
      Tlv 0 true 17 parts.flatten b
  | .sequence fs, v, b => ∃ cs c, v = .sequence cs ∧ DerFields fs cs c ∧ Tlv 0 true 16 c b

/-- `b` is the concatenation of the encodings of the components, in the order of
the type; optional components may be missing. -/
def DerFields : Fields → List (String × Val) → Bytes → Prop
  | .nil, cs, b => cs = [] ∧ b = []
  | .cons name optional tag ty rest, cs, b =>
    (∃ v cs' p q inner, cs = (name, v) :: cs' ∧ b = p ++ q ∧ Der ty v inner ∧
      (match tag with
        | none => p = inner
        | some n => Tlv 2 true n inner p) ∧ DerFields rest cs' q) ∨
    (optional = true ∧ DerFields rest cs b)

end

/-- What is assumed of the decoder, where something is: it decodes a key
description in DER, whatever comes after it. -/
def DerLaw (env : Env) : Prop :=
  ∀ v b rest, Der keyDescription v b → env.decodeDer keyDescription (b ++ rest) = .ok v

mutual

/-- The value is one of the type. -/
def HasType : Ty → Val → Prop
  | .integer, v => ∃ n, v = .integer n
  | .boolean, v => ∃ b, v = .boolean b
  | .enumerated, v => ∃ n, v = .enumerated n
  | .octetString, v => ∃ b, v = .octets b
  | .null, v => v = .null
  | .setOf t, v => ∃ l, v = .set l ∧ ∀ w ∈ l, HasType t w
  | .sequence fs, v => ∃ cs, v = .sequence cs ∧ HasFields fs cs

/-- The components are those of the fields, in order, where optional ones may be
missing. -/
def HasFields : Fields → List (String × Val) → Prop
  | .nil, cs => cs = []
  | .cons name optional _ ty rest, cs =>
    (∃ v cs', cs = (name, v) :: cs' ∧ HasType ty v ∧ HasFields rest cs') ∨
    optional = true ∧ HasFields rest cs

end

/-- Assumed of the decoder, where something is said of what it returns for
arbitrary bytes: it is a value of the type asked for. -/
def DerTyped (env : Env) : Prop :=
  ∀ b v, env.decodeDer keyDescription b = .ok v → HasType keyDescription v

end WebAuthn.Spec
