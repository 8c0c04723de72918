import Verif.Model.Env

/-!
# `webauthn_rp/utils.py`

(base64 is in `Model/Base64.lean`.)
-/

namespace WebAuthn

/-! ## Case conversion

`str.upper`, `str.lower`, `str.isupper` are modelled by their ASCII part
(non-ASCII letters are left alone).  All names that the package converts are
ASCII. -/

def isUpper (c : Char) : Bool := 'A' ≤ c && c ≤ 'Z'
def isLower (c : Char) : Bool := 'a' ≤ c && c ≤ 'z'
def toUpper (c : Char) : Char := if isLower c then Char.ofNat (c.toNat - 32) else c
def toLower (c : Char) : Char := if isUpper c then Char.ofNat (c.toNat + 32) else c

/-- The non-empty pieces of `re.split(r'_+', s)` (utils.py 50). `cur` is the
piece being read. -/
def snakeChunks : List Char → (cur : List Char) → List (List Char)
  | [], cur => if cur = [] then [] else [cur]
  | c :: cs, cur =>
    if c = '_' then
      (if cur = [] then snakeChunks cs [] else cur :: snakeChunks cs [])
    else snakeChunks cs (cur ++ [c])

/-- `x[0].upper() + x[1:]` (utils.py 51). -/
def capitalise : List Char → List Char
  | [] => []
  | c :: cs => toUpper c :: cs

/-- `snake_to_camel_case` (utils.py 41-54) on characters. -/
def snakeToCamelChars (s : List Char) : List Char :=
  match snakeChunks s [] with
  | [] => []
  | x :: xs => x ++ (xs.map capitalise).flatten

/-- `snake_to_camel_case` (utils.py 41-54). -/
def snakeToCamel (s : String) : String := String.ofList (snakeToCamelChars s.toList)

/-- The loop of `camel_to_snake_case` (utils.py 66-72): the words, the one being
read being `cur`.  An upper-case letter closes the current word (even when it is
empty). -/
def camelWords : List Char → (cur : List Char) → List (List Char)
  | [], cur => if cur = [] then [] else [cur]
  | c :: cs, cur =>
    if isUpper c then cur :: camelWords cs [c] else camelWords cs (cur ++ [c])

/-- `'_'.join(words)` (utils.py 73). -/
def joinUnderscore : List (List Char) → List Char
  | [] => []
  | [w] => w
  | w :: ws => w ++ '_' :: joinUnderscore ws

/-- `camel_to_snake_case` (utils.py 57-73) on characters. -/
def camelToSnakeChars (s : List Char) : List Char :=
  joinUnderscore ((camelWords s []).map (·.map toLower))

/-- `camel_to_snake_case` (utils.py 57-73). -/
def camelToSnake (s : String) : String := String.ofList (camelToSnakeChars s.toList)

/-- `ExtensionIdentifier.key` (types.py 649-651). -/
def ExtId.key (e : ExtId) : String := camelToSnake e.value

/-! ## Tables -/

/-- `curve_coordinate_byte_length` (utils.py 106-120, constants.py 1-5).  The
assertion at line 119 holds for every member of the two curve enums. -/
def curveCoordinateByteLength (crv : NV Curve) : Nat :=
  match crv.id with
  | .P_256 => 32
  | .P_384 => 48
  | .P_521 => 66
  | .ED25519 => 32
  | .ED448 => 57

/-- `ec2_hash_algorithm` (utils.py 123-138): `AssertionError` for `EDDSA`. -/
def ec2HashAlgorithm (alg : NV Alg) : Py HashAlg :=
  match alg.id with
  | .ES256 => .ok .SHA256
  | .ES384 => .ok .SHA384
  | .ES512 => .ok .SHA512
  | .EDDSA => .error .assertionError

end WebAuthn
