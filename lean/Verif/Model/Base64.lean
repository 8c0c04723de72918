import Verif.Model.Py

/-!
# base64

`base64.b64encode` / `base64.b64decode` (CPython `Lib/base64.py`) on top of
`binascii.b2a_base64` / `binascii.a2b_base64` in its default, lenient mode
(CPython `Modules/binascii.c`, algorithm of CPython 3.8 - 3.11).
-/

namespace WebAuthn.Base64

/-- The standard alphabet. -/
def alphabet : List Char :=
  "ABCDEFGHIJKLMNOPQRSTUVWXYZabcdefghijklmnopqrstuvwxyz0123456789+/".toList

/-- `table_b2a_base64`: the character of a 6-bit value. -/
def encChar (n : Nat) : Char := alphabet.getD n 'A'

/-- `table_a2b_base64`: the 6-bit value of an alphabet character. -/
def decChar (c : Char) : Option Nat :=
  let n := c.toNat
  if 65 ≤ n ∧ n ≤ 90 then some (n - 65)
  else if 97 ≤ n ∧ n ≤ 122 then some (n - 97 + 26)
  else if 48 ≤ n ∧ n ≤ 57 then some (n - 48 + 52)
  else if n = 43 then some 62
  else if n = 47 then some 63
  else none

/-- `binascii.b2a_base64(b, newline=False)`. -/
def b2a : Bytes → List Char
  | [] => []
  | [a] =>
    let n := a.toNat
    [encChar (n / 4), encChar (n % 4 * 16), '=', '=']
  | [a, b] =>
    let n := a.toNat * 256 + b.toNat
    [encChar (n / 1024), encChar (n / 16 % 64), encChar (n % 16 * 4), '=']
  | a :: b :: c :: rest =>
    let n := (a.toNat * 256 + b.toNat) * 256 + c.toNat
    encChar (n / 262144) :: encChar (n / 4096 % 64) :: encChar (n / 64 % 64) ::
      encChar (n % 64) :: b2a rest

/-- The state of the loop of `binascii.a2b_base64` between two characters:
`quad_pos`, `leftchar`, `pads`. -/
structure St where
  quad : Nat
  left : Nat
  pads : Nat
  deriving DecidableEq, Repr

/-- The loop of `binascii.a2b_base64` (non-strict).  `acc` is the output so
far.  A pad character ends the input if it completes the quad, and is ignored
otherwise; characters outside the alphabet are ignored; at the end of the
input an incomplete quad is a `binascii.Error`. -/
def a2bLoop : List Char → St → Bytes → Py Bytes
  | [], st, acc => if st.quad = 0 then .ok acc else .error .binasciiError
  | c :: cs, st, acc =>
    if c = '=' then
      if st.quad ≥ 2 ∧ st.quad + (st.pads + 1) ≥ 4 then .ok acc
      else a2bLoop cs
        { st with pads := if st.quad ≥ 2 then st.pads + 1 else st.pads } acc
    else match decChar c with
      | none => a2bLoop cs st acc
      | some v =>
        if st.quad = 0 then a2bLoop cs ⟨1, v, 0⟩ acc
        else if st.quad = 1 then
          a2bLoop cs ⟨2, v % 16, 0⟩ (acc ++ [UInt8.ofNat (st.left * 4 + v / 16)])
        else if st.quad = 2 then
          a2bLoop cs ⟨3, v % 4, 0⟩ (acc ++ [UInt8.ofNat (st.left * 16 + v / 4)])
        else
          a2bLoop cs ⟨0, 0, 0⟩ (acc ++ [UInt8.ofNat (st.left * 64 + v)])

/-- `binascii.a2b_base64(s)` for an ASCII string. -/
def a2b (s : List Char) : Py Bytes := a2bLoop s ⟨0, 0, 0⟩ []

/-- `base64.b64decode(s)` for a `str` argument: non-ASCII text is a
`ValueError`. -/
def b64decode (s : String) : Py Bytes :=
  if s.toList.all (fun c => c.toNat < 128) then a2b s.toList
  else .error .valueError

/-- `base64.b64encode(b).decode('ascii')`. -/
def b64encode (b : Bytes) : String := String.ofList (b2a b)

/-- `bytes.maketrans(b'+/', b'-_')` as used by `b64encode(b, b'-_')`. -/
def toUrlChar (c : Char) : Char :=
  if c = '+' then '-' else if c = '/' then '_' else c

/-- `bytes.maketrans(b'-_', b'+/')` as used by `b64decode(s, b'-_')`. -/
def fromUrlChar (c : Char) : Char :=
  if c = '-' then '+' else if c = '_' then '/' else c

end WebAuthn.Base64

namespace WebAuthn

open Base64

/-- `url_base64_encode` (utils.py 76-88), as text. -/
def urlBase64Encode (b : Bytes) : String :=
  String.ofList ((b2a b).map toUrlChar)

/-- `url_base64_decode` (utils.py 91-103): `base64.b64decode(s + '===', b'-_')`. -/
def urlBase64Decode (s : String) : Py Bytes :=
  let cs := s.toList ++ ['=', '=', '=']
  if cs.all (fun c => c.toNat < 128) then a2b (cs.map fromUrlChar)
  else .error .valueError

end WebAuthn
