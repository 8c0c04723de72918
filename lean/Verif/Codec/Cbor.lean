import Verif.Spec.Laws
import Verif.Lemmas.BigEndian

/-!
# A CBOR codec

A decoder and an encoder for the definite-length part of RFC 8949 without tags,
with the behaviour of `cbor2.load` and `cbor2.dumps` on that part (shortest
heads, items of a map in order, 64-bit floats).  It is one instance of the CBOR
fields of `Env`, and shows that the laws asked of the library can be met.
-/

namespace WebAuthn.Cbor

/-! ## Encoder -/

/-- The head of an item with a 64-bit argument. -/
def head (major n : Nat) : Bytes :=
  if n < 24 then [UInt8.ofNat (major * 32 + n)]
  else if n < 2 ^ 8 then UInt8.ofNat (major * 32 + 24) :: toBE 1 n
  else if n < 2 ^ 16 then UInt8.ofNat (major * 32 + 25) :: toBE 2 n
  else if n < 2 ^ 32 then UInt8.ofNat (major * 32 + 26) :: toBE 4 n
  else UInt8.ofNat (major * 32 + 27) :: toBE 8 n

mutual
/-- Encode a value. -/
def enc : PyVal → Py Bytes
  | .none => .ok [0xf6]
  | .bool b => .ok [if b then 0xf5 else 0xf4]
  | .int n =>
    if 0 ≤ n then
      (if n < 2 ^ 64 then .ok (head 0 n.toNat) else .error .typeError)
    else
      (if -2 ^ 64 ≤ n then .ok (head 1 (-1 - n).toNat) else .error .typeError)
  | .float f => .ok (0xfb :: toBE 8 f.bits.toNat)
  | .str s =>
    if (utf8Encode s).length < 2 ^ 64 then
      .ok (head 3 (utf8Encode s).length ++ utf8Encode s)
    else .error .typeError
  | .bytes b => if b.length < 2 ^ 64 then .ok (head 2 b.length ++ b) else .error .typeError
  | .list l =>
    if l.length < 2 ^ 64 then
      match encList l with
      | .ok b => .ok (head 4 l.length ++ b)
      | .error e => .error e
    else .error .typeError
  | .tuple l =>
    if l.length < 2 ^ 64 then
      match encList l with
      | .ok b => .ok (head 4 l.length ++ b)
      | .error e => .error e
    else .error .typeError
  | .dict d =>
    if d.length < 2 ^ 64 then
      match encPairs d with
      | .ok b => .ok (head 5 d.length ++ b)
      | .error e => .error e
    else .error .typeError
  | .other _ _ => .error .typeError
/-- Encode the items of an array. -/
def encList : List PyVal → Py Bytes
  | [] => .ok []
  | v :: l => match enc v with
    | .ok b => (match encList l with
      | .ok r => .ok (b ++ r)
      | .error e => .error e)
    | .error e => .error e
/-- Encode the items of a map. -/
def encPairs : List (PyVal × PyVal) → Py Bytes
  | [] => .ok []
  | p :: l => match encPair p with
    | .ok b => (match encPairs l with
      | .ok r => .ok (b ++ r)
      | .error e => .error e)
    | .error e => .error e
/-- Encode a key and its value. -/
def encPair : PyVal × PyVal → Py Bytes
  | (k, v) => match enc k with
    | .ok a => (match enc v with
      | .ok b => .ok (a ++ b)
      | .error e => .error e)
    | .error e => .error e
end

/-! ## Decoder -/

/-- Read exactly `n` bytes. -/
def take (n : Nat) (b : Bytes) : Py (Bytes × Bytes) :=
  if n ≤ b.length then .ok (b.take n, b.drop n) else .error .cborDecodeEOF

/-- Read the head of an item: major type, additional information, argument. -/
def decHead : Bytes → Py ((Nat × Nat × Nat) × Bytes)
  | [] => .error .cborDecodeEOF
  | b :: r =>
    let major := b.toNat / 32
    let info := b.toNat % 32
    if info < 24 then .ok ((major, info, info), r)
    else if info < 28 then do
      let (arg, r) ← take (2 ^ (info - 24)) r
      return ((major, info, beNat arg), r)
    else .error .cborDecodeValueError

/-- Read `n` items with `dec`. -/
def many {α : Type} (dec : Bytes → Py (α × Bytes)) : Nat → Bytes → Py (List α × Bytes)
  | 0, b => .ok ([], b)
  | n + 1, b => do
    let (x, b) ← dec b
    let (xs, b) ← many dec n b
    return (x :: xs, b)

/-- Read a key and a value. -/
def pair {α : Type} (dec : Bytes → Py (α × Bytes)) (b : Bytes) : Py ((α × α) × Bytes) := do
  let (k, b) ← dec b
  let (v, b) ← dec b
  return ((k, v), b)

/-- The payload of an item, after its head. -/
def payload (dec : Bytes → Py (PyVal × Bytes)) (h : Nat × Nat × Nat) (b : Bytes) :
    Py (PyVal × Bytes) :=
  match h with
  | (0, _, n) => .ok (.int n, b)
  | (1, _, n) => .ok (.int (-1 - n), b)
  | (2, _, n) => do
    let (x, b) ← take n b
    return (.bytes x, b)
  | (3, _, n) => do
    let (x, b) ← take n b
    match utf8Decode x with
    | .ok s => return (.str s, b)
    | .error _ => .error .cborDecodeValueError
  | (4, _, n) => do
    let (xs, b) ← many dec n b
    return (.list xs, b)
  | (5, _, n) => do
    let (xs, b) ← many (pair dec) n b
    return (.dict xs, b)
  | (7, 20, _) => .ok (.bool false, b)
  | (7, 21, _) => .ok (.bool true, b)
  | (7, 22, _) => .ok (.none, b)
  | (7, 27, n) => .ok (.float ⟨UInt64.ofNat n⟩, b)
  | _ => .error .cborDecodeValueError

/-- Decode one item of nesting depth at most `fuel`. -/
def dec : (fuel : Nat) → Bytes → Py (PyVal × Bytes)
  | 0, _ => .error .cborDecodeEOF
  | fuel + 1, b => do
    let (h, b) ← decHead b
    payload (dec fuel) h b

/-- Decode one item: the depth of an item is at most its length. -/
def load (b : Bytes) : Py (PyVal × Bytes) := dec (b.length + 1) b

end WebAuthn.Cbor
