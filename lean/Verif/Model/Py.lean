/-!
# Python values, dictionaries and exceptions

The fragment of Python that the package can observe.  Nothing here is specific
to WebAuthn.
-/

namespace WebAuthn

/-- Python `bytes`. -/
abbrev Bytes := List UInt8

/-! ## Exceptions -/

/-- The exception classes of `webauthn_rp/errors.py` (lines 1-144), one
constructor per class that some statement of the package raises. -/
inductive LibErr where
  | clientDataType | challenge | tokenBinding | rpIdHash | userPresence
  | userVerification | extension | credentialNotAllowed | userId | userHandle
  | rpNotFound | rpId | registration | credentialData | signatureCount
  | jsonConversion | publicKeyConversion | parser | decoding | origin
  | verification | unimplemented | validation | builder | attestation | internal
  deriving DecidableEq, Repr

/-- A raised Python exception, identified by the distinctions that the `except`
clauses of the package can make.

* `lib e`: an instance of a class of `webauthn_rp/errors.py` (all of them
  derive from `WebAuthnRPError`);
* the named constructors: standard-library and dependency classes mentioned in
  some `except` clause, or raised by operations the package performs;
* `other n`: any further subclass of `Exception`;
* `base n`: a `BaseException` that is not an `Exception` (`KeyboardInterrupt`,
  `SystemExit`, ...). -/
inductive Exc where
  | lib (e : LibErr)
  | valueError | unicodeDecodeError | jsonDecodeError | binasciiError
  | keyError | typeError | attributeError | assertionError | eofError
  | cborDecodeError | cborDecodeEOF | cborDecodeValueError
  | invalidSignature | extensionNotFound | pyAsn1Error
  | other (n : Nat)
  | base (n : Nat)
  deriving DecidableEq, Repr

namespace Exc

/-- `isinstance(e, WebAuthnRPError)`. -/
def isWebAuthn : Exc → Bool
  | lib _ => true
  | _ => false

/-- `isinstance(e, Exception)`. -/
def isException : Exc → Bool
  | base _ => false
  | _ => true

/-- `isinstance(e, ValueError)`: `UnicodeDecodeError`, `json.JSONDecodeError`,
`binascii.Error` and `cbor2.CBORDecodeValueError` derive from `ValueError`. -/
def isValueError : Exc → Bool
  | valueError | unicodeDecodeError | jsonDecodeError | binasciiError
  | cborDecodeValueError => true
  | _ => false

/-- `isinstance(e, cbor2.CBORDecodeError)`. -/
def isCborDecodeError : Exc → Bool
  | cborDecodeError | cborDecodeEOF | cborDecodeValueError => true
  | _ => false

/-- `isinstance(e, EOFError)`: `cbor2.CBORDecodeEOF` derives from `EOFError`. -/
def isEOFError : Exc → Bool
  | eofError | cborDecodeEOF => true
  | _ => false

/-- `isinstance(e, KeyError)`. -/
def isKeyError : Exc → Bool
  | keyError => true
  | _ => false

/-- `isinstance(e, (UnicodeDecodeError, json.JSONDecodeError))`. -/
def isUnicodeOrJson : Exc → Bool
  | unicodeDecodeError | jsonDecodeError => true
  | _ => false

end Exc

/-- A Python computation without effects: a value or a raised exception. -/
abbrev Py := Except Exc

/-- `raise` of a library error. -/
def raise {α : Type} (e : LibErr) : Py α := .error (.lib e)

/-- `if not b: raise e`. -/
def require (b : Bool) (e : LibErr) : Py Unit := if b then .ok () else raise e

/-- `assert b`. -/
def pyAssert (b : Bool) : Py Unit := if b then .ok () else .error .assertionError

/-- `try: m  except <classes selected by p>: raise h`. -/
def catching {α : Type} (m : Py α) (p : Exc → Bool) (h : LibErr) : Py α :=
  match m with
  | .ok a => .ok a
  | .error e => if p e then .error (.lib h) else .error e

/-! ## Values -/

/-- A Python `float`, given by its IEEE-754 binary64 bit pattern. -/
structure PyFloat where
  bits : UInt64
  deriving DecidableEq, Repr

/-- The integer a float is equal to (`float.is_integer` / `int(f)`), if any. -/
def PyFloat.toInt? (f : PyFloat) : Option Int :=
  let n := f.bits.toNat
  let e := n / 2 ^ 52 % 2 ^ 11
  let m := n % 2 ^ 52
  let sign : Int := if n / 2 ^ 63 = 1 then -1 else 1
  if e = 2047 then none
  else if e = 0 then (if m = 0 then some 0 else none)
  else
    let sig := 2 ^ 52 + m
    if 1075 ≤ e then some (sign * (sig * 2 ^ (e - 1075) : Nat))
    else if sig % 2 ^ (1075 - e) = 0 then some (sign * (sig / 2 ^ (1075 - e) : Nat))
    else none

/-- A dynamically typed Python value, as returned by `json.loads` or
`cbor2.load`.  A `dict` is the list of its items in iteration order.
`other id num` is an object of any further type (a CBOR tag, a `datetime`, a
`Decimal`, ...); `num` is the integer it compares equal to, if any. -/
inductive PyVal where
  | none
  | bool (b : Bool)
  | int (n : Int)
  | float (f : PyFloat)
  | str (s : String)
  | bytes (b : Bytes)
  | list (l : List PyVal)
  | tuple (l : List PyVal)
  | dict (d : List (PyVal × PyVal))
  | other (id : Nat) (num : Option Int)

/-- The items of a Python `dict`. -/
abbrev Dict := List (PyVal × PyVal)

/-- The keys the package looks up: integers and strings. -/
inductive Key where
  | int (n : Int)
  | str (s : String)
  deriving DecidableEq, Repr

namespace PyVal

/-- The integer a value compares equal to (`1 == True == 1.0`). -/
def num? : PyVal → Option Int
  | bool b => some (if b then 1 else 0)
  | int n => some n
  | float f => f.toInt?
  | other _ n => n
  | _ => Option.none

/-- Python equality of a dictionary key with a looked-up key. -/
def isKey (v : PyVal) : Key → Bool
  | .int n => v.num? == some n
  | .str s => match v with
    | str t => t == s
    | _ => false

/-- `v is None`. -/
def isNone : PyVal → Bool
  | none => true
  | _ => false

/-! Projections: `some` exactly when `type(v)` is (one of) the named type(s). -/

def asBool? : PyVal → Option Bool
  | bool b => some b
  | _ => Option.none

def asInt? : PyVal → Option Int
  | int n => some n
  | _ => Option.none

def asStr? : PyVal → Option String
  | str s => some s
  | _ => Option.none

def asBytes? : PyVal → Option Bytes
  | bytes b => some b
  | _ => Option.none

def asDict? : PyVal → Option Dict
  | dict d => some d
  | _ => Option.none

def asList? : PyVal → Option (List PyVal)
  | list l => some l
  | _ => Option.none

/-- `type(v) in (list, tuple)`. -/
def asSeq? : PyVal → Option (List PyVal)
  | list l => some l
  | tuple l => some l
  | _ => Option.none

/-- `type(v) in (int, str)`. -/
def asKey? : PyVal → Option Key
  | int n => some (.int n)
  | str s => some (.str s)
  | _ => Option.none

end PyVal

namespace Dict

/-- `d[k]`, `none` when the key is absent. -/
def get? : Dict → Key → Option PyVal
  | [], _ => none
  | (k', v) :: rest, k => if k'.isKey k then some v else get? rest k

/-- `d.get(k)`: `None` when the key is absent. -/
def get (d : Dict) (k : Key) : PyVal := (get? d k).getD .none

/-- `k in d`. -/
def has (d : Dict) (k : Key) : Bool := (get? d k).isSome

/-- `set(d.keys()).difference(supported)` is empty. -/
def keysWithin (d : Dict) (supported : List String) : Bool :=
  d.all fun kv => supported.any fun s => kv.1.isKey (.str s)

end Dict

/-! ## Numbers and text -/

/-- `int.from_bytes(b, 'big')` and `struct.unpack('>I' / '>H', b)`. -/
def beNat (b : Bytes) : Nat := b.foldl (fun acc x => acc * 256 + x.toNat) 0

/-- `n.to_bytes(len, 'big')` (low-order bytes). -/
def toBE : (len : Nat) → Nat → Bytes
  | 0, _ => []
  | len + 1, n => toBE len (n / 256) ++ [UInt8.ofNat (n % 256)]

/-- `s.encode('utf-8')`. -/
def utf8Encode (s : String) : Bytes := s.toUTF8.data.toList

/-- `b.decode('utf-8')`. -/
def utf8Decode (b : Bytes) : Py String :=
  match String.fromUTF8? ⟨b.toArray⟩ with
  | some s => .ok s
  | none => .error .unicodeDecodeError

end WebAuthn
