import Verif.Spec.Ceremony
import Verif.Spec.JsonGrammar

/-!
# What is assumed of the CBOR library, where something is

Most theorems hold for every `Env`.  Those that need more say so with one of the
two bundles below.  `Codec/Cbor.lean` shows that both can be met.
-/

namespace WebAuthn.Spec

/-- The decoder reads its input from front to back and its result depends only
on the bytes it read: `cbor2.load` on a stream. -/
structure StreamLaws (env : Env) : Prop where
  /-- It reads at least one byte and leaves the rest. -/
  split : ∀ {b v rest}, env.cborLoad b = .ok (v, rest) → ∃ used, used ≠ [] ∧ b = used ++ rest
  /-- What follows the item has no influence. -/
  extend : ∀ {used v rest}, env.cborLoad (used ++ rest) = .ok (v, rest) →
    ∀ rest', env.cborLoad (used ++ rest') = .ok (v, rest')
  /-- Input that ends within the item is an error. -/
  short : ∀ {p q rest v}, env.cborLoad (p ++ q ++ rest) = .ok (v, rest) → q ≠ [] →
    ∃ e, env.cborLoad p = .error e

/-- Values that CBOR can represent and that come back unchanged: no tuples, no
exotic objects, dictionaries keyed by distinct integers and strings. -/
inductive Plain : PyVal → Prop
  | none : Plain .none
  | bool (b : Bool) : Plain (.bool b)
  | int (n : Int) : Plain (.int n)
  | float (f : PyFloat) : f.bits.toNat / 2 ^ 52 % 2 ^ 11 ≠ 2047 → Plain (.float f)
  | str (s : String) : Plain (.str s)
  | bytes (b : Bytes) : Plain (.bytes b)
  | list (l : List PyVal) : (∀ v ∈ l, Plain v) → Plain (.list l)
  | dict (d : Dict) : (∀ kv ∈ d, (∃ n, kv.1 = .int n) ∨ ∃ s, kv.1 = .str s) →
      (d.map Prod.fst).Nodup → (∀ kv ∈ d, Plain kv.2) → Plain (.dict d)

/-- Encoding and decoding of plain values are inverse to each other. -/
structure CodecLaws (env : Env) : Prop where
  roundTrip : ∀ {v b}, Plain v → env.cborDumps v = .ok b →
    ∀ rest, env.cborLoad (b ++ rest) = .ok (v, rest)

end WebAuthn.Spec

namespace WebAuthn.Spec

/-! ## Client data serialisation

The serialisation that browsers use (Web Authentication Level 2, section
5.8.1.1, `CCDToString`). -/

/-- A lower-case hexadecimal digit. -/
def hexDigit (n : Nat) : Char := if n < 10 then Char.ofNat (48 + n) else Char.ofNat (87 + n)

/-- One character of a JSON string. -/
def ccdChar (c : Char) : List Char :=
  if c = '"' then ['\\', '"']
  else if c = '\\' then ['\\', '\\']
  else if c.toNat < 32 then
    ['\\', 'u', '0', '0', hexDigit (c.toNat / 16), hexDigit (c.toNat % 16)]
  else [c]

/-- `CCDToString`. -/
def ccdToString (s : String) : List Char := '"' :: s.toList.flatMap ccdChar ++ ['"']

/-- The client data JSON text for a ceremony. -/
def clientText (type challenge origin : String) : String :=
  String.ofList ("{\"type\":".toList ++ ccdToString type ++ ",\"challenge\":".toList ++
    ccdToString challenge ++ ",\"origin\":".toList ++ ccdToString origin ++
    ",\"crossOrigin\":false}".toList)

/-- The JSON library reads JSON. -/
def JsonLaw (env : Env) : Prop := ∀ s v, JsonText s v → env.jsonLoads s = .ok v

end WebAuthn.Spec
