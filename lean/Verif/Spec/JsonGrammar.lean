import Verif.Spec.Data

/-!
# Specification of JSON texts (RFC 8259)

The relation between a text and the value that `json.loads` gives for it.  Left out,
and so not assumed to be read in any particular way: numbers with a fraction or an
exponent, integers of more than 4300 digits (the limit of `int`), escaped
surrogates, objects with two members of the same name, and nesting beyond a bound.
-/

namespace WebAuthn.Spec

namespace JsonGrammar

/-- White space (RFC 8259, section 2). -/
def Space (t : List Char) : Prop := ∀ c ∈ t, c = ' ' ∨ c = '\t' ∨ c = '\n' ∨ c = '\r'

/-- A value with white space around it. -/
def Padded {α : Type} (P : List Char → α → Prop) (t : List Char) (v : α) : Prop :=
  ∃ a m b, t = a ++ m ++ b ∧ Space a ∧ Space b ∧ P m v

/-- A hexadecimal digit. -/
def HexDigit (c : Char) (n : Nat) : Prop :=
  "0123456789abcdef".toList[n]? = some c ∨ "0123456789ABCDEF".toList[n]? = some c

/-- The escapes of one letter (section 7). -/
def escapes : List (Char × Nat) :=
  [('"', 0x22), ('\\', 0x5c), ('/', 0x2f), ('b', 0x08), ('f', 0x0c), ('n', 0x0a), ('r', 0x0d),
   ('t', 0x09)]

/-- A character in a string. -/
inductive IsChar : List Char → Char → Prop
  | plain (c : Char) : 0x20 ≤ c.toNat → c ≠ '"' → c ≠ '\\' → IsChar [c] c
  | escape (e c : Char) : (e, c.toNat) ∈ escapes → IsChar ['\\', e] c
  | code (a b d e c : Char) (w x y z : Nat) : HexDigit a w → HexDigit b x → HexDigit d y →
      HexDigit e z → c.toNat = 4096 * w + 256 * x + 16 * y + z → IsChar ['\\', 'u', a, b, d, e] c

inductive IsChars : List Char → List Char → Prop
  | nil : IsChars [] []
  | cons (t ts : List Char) (c : Char) (cs : List Char) : IsChar t c → IsChars ts cs →
      IsChars (t ++ ts) (c :: cs)

/-- A string. -/
def IsString (t : List Char) (s : String) : Prop :=
  ∃ body, t = '"' :: body ++ ['"'] ∧ IsChars body s.toList

/-- An integer without a leading zero. -/
def IsNatural (t : List Char) (n : Nat) : Prop :=
  Decimal t n ∧ t ≠ [] ∧ t.length ≤ 4300 ∧ (t.head? = some '0' → t = ['0'])

/-- A string, an integer or one of the three literals. -/
inductive IsScalar : List Char → PyVal → Prop
  | str (t : List Char) (s : String) : IsString t s → IsScalar t (.str s)
  | nat (t : List Char) (n : Nat) : IsNatural t n → IsScalar t (.int n)
  | neg (t : List Char) (n : Nat) : IsNatural t n → IsScalar ('-' :: t) (.int (-n))
  | true : IsScalar ['t', 'r', 'u', 'e'] (.bool true)
  | false : IsScalar ['f', 'a', 'l', 's', 'e'] (.bool false)
  | null : IsScalar ['n', 'u', 'l', 'l'] .none

/-- The elements of an array and the closing bracket. -/
inductive IsElements (P : List Char → PyVal → Prop) : List Char → List PyVal → Prop
  | last (t : List Char) (v : PyVal) : Padded P t v → IsElements P (t ++ [']']) [v]
  | cons (t : List Char) (v : PyVal) (ts : List Char) (vs : List PyVal) : Padded P t v →
      IsElements P ts vs → IsElements P (t ++ ',' :: ts) (v :: vs)

/-- The members of an object and the closing brace. -/
inductive IsMembers (P : List Char → PyVal → Prop) : List Char → List (String × PyVal) → Prop
  | last (k : List Char) (name : String) (t : List Char) (v : PyVal) : Padded IsString k name →
      Padded P t v → IsMembers P (k ++ ':' :: t ++ ['}']) [(name, v)]
  | cons (k : List Char) (name : String) (t : List Char) (v : PyVal) (ts : List Char)
      (ms : List (String × PyVal)) : Padded IsString k name → Padded P t v → IsMembers P ts ms →
      IsMembers P (k ++ ':' :: t ++ ',' :: ts) ((name, v) :: ms)

/-- The dictionary with the given members. -/
def dictOf (ms : List (String × PyVal)) : Dict := ms.map fun m => (.str m.1, m.2)

/-- A value with at most `depth` arrays and objects around each part. -/
def IsValue : (depth : Nat) → List Char → PyVal → Prop
  | 0, t, v => IsScalar t v
  | depth + 1, t, v =>
    IsScalar t v ∨
    (∃ w, Space w ∧ t = '[' :: w ++ [']'] ∧ v = .list []) ∨
    (∃ w, Space w ∧ t = '{' :: w ++ ['}'] ∧ v = .dict []) ∨
    (∃ ts vs, t = '[' :: ts ∧ IsElements (IsValue depth) ts vs ∧ v = .list vs) ∨
    (∃ ts ms, t = '{' :: ts ∧ IsMembers (IsValue depth) ts ms ∧ (ms.map Prod.fst).Nodup ∧
      v = .dict (dictOf ms))

end JsonGrammar

/-- The text is JSON for the value; arrays and objects are nested at most 100 deep. -/
def JsonText (s : String) (v : PyVal) : Prop :=
  JsonGrammar.Padded (JsonGrammar.IsValue 100) s.toList v

end WebAuthn.Spec
