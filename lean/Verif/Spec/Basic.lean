import Verif.Model.Interface

/-!
# Specification vocabulary: dictionaries, text, origins

Small relations in terms of which the properties are stated.  They use the data
types of the model but none of its functions, except where a dependency of the
package is meant (`env....`).
-/

namespace WebAuthn.Spec

/-! ## Dictionaries -/

/-- The value of a finite float (IEEE 754, binary64) in units of `2 ^ -1074`. -/
def scaled (f : PyFloat) : Int :=
  let n := f.bits.toNat
  let e := n / 2 ^ 52 % 2 ^ 11
  let m := n % 2 ^ 52
  (if n / 2 ^ 63 = 1 then -1 else 1) * ((if e = 0 then m else (2 ^ 52 + m) * 2 ^ (e - 1)) : Nat)

/-- The float is finite and equal to the integer. -/
def FloatIs (f : PyFloat) (n : Int) : Prop :=
  f.bits.toNat / 2 ^ 52 % 2 ^ 11 ≠ 2047 ∧ scaled f = n * 2 ^ 1074

/-- Python equality of a dictionary key with an `int` or `str`. -/
inductive EqKey : PyVal → Key → Prop
  | str (s : String) : EqKey (.str s) (.str s)
  | int (n : Int) : EqKey (.int n) (.int n)
  | true_ : EqKey (.bool true) (.int 1)
  | false_ : EqKey (.bool false) (.int 0)
  | float (f : PyFloat) (n : Int) : FloatIs f n → EqKey (.float f) (.int n)
  | other (i : Nat) (n : Int) : EqKey (.other i (some n)) (.int n)

/-- The dictionary `d` has the value `v` under the key `k`. -/
def Lookup (d : Dict) (k : Key) (v : PyVal) : Prop :=
  ∃ pre k' post, d = pre ++ (k', v) :: post ∧ EqKey k' k ∧ ∀ kv ∈ pre, ¬ EqKey kv.1 k

/-- The key `k` is absent. -/
def Absent (d : Dict) (k : Key) : Prop := ∀ kv ∈ d, ¬ EqKey kv.1 k

/-- `d.get(k)` is `None`: the key is absent or its value is `None`. -/
def Missing (d : Dict) (k : Key) : Prop := Absent d k ∨ Lookup d k .none

/-- Every key is one of the given strings. -/
def OnlyKeys (d : Dict) (ks : List String) : Prop := ∀ kv ∈ d, ∃ s ∈ ks, kv.1 = .str s

/-! ## Text -/

/-- `b` is the UTF-8 encoding of `s`. -/
def Utf8 (b : Bytes) (s : String) : Prop := b = s.toUTF8.data.toList

/-! ## Origins -/

/-- Space and the C0 control characters. -/
def Blank (c : Char) : Prop := c.toNat ≤ 32

/-- Characters that `urllib` deletes anywhere in a URL. -/
def Deleted (c : Char) : Prop := c = '\t' ∨ c = '\r' ∨ c = '\n'

/-- `s` with leading blanks and all tabs and newlines removed is `t`. -/
def Cleaned (s t : List Char) : Prop :=
  ∃ lead rest, s = lead ++ rest ∧ (∀ c ∈ lead, Blank c) ∧
    (∀ c, rest.head? = some c → ¬ Blank c) ∧
    t = rest.filter (fun c => c ≠ '\t' ∧ c ≠ '\r' ∧ c ≠ '\n')

/-- The text of the port in an authority: what follows the first `:` of the part
after the last `@` (after the first `]` if that part has a `[`). -/
inductive PortText : List Char → List Char → Prop
  | none (host : List Char) : ':' ∉ host → '[' ∉ host → PortText host []
  | some (host port : List Char) : ':' ∉ host → '[' ∉ host → '[' ∉ port →
      PortText (host ++ ':' :: port) port
  | bracketUnclosed (pre body : List Char) : '[' ∉ pre → ']' ∉ body →
      PortText (pre ++ '[' :: body) []
  | bracketNone (pre body mid : List Char) : '[' ∉ pre → ']' ∉ body → ':' ∉ mid →
      PortText (pre ++ '[' :: body ++ ']' :: mid) []
  | bracketSome (pre body mid port : List Char) : '[' ∉ pre → ']' ∉ body → ':' ∉ mid →
      PortText (pre ++ '[' :: body ++ ']' :: mid ++ ':' :: port) port

/-- Decimal value of a digit string. -/
inductive Decimal : List Char → Nat → Prop
  | nil : Decimal [] 0
  | snoc (s : List Char) (n k : Nat) : Decimal s n → k < 10 →
      Decimal (s ++ [Char.ofNat (48 + k)]) (10 * n + k)

/-- The authority `netloc` denotes port `p`, `default` being the port to use
when none is written. -/
def PortOf (netloc : List Char) (default p : Nat) : Prop :=
  ∃ userinfo hostinfo port,
    (netloc = hostinfo ∧ userinfo = ([] : List Char) ∨ netloc = userinfo ++ '@' :: hostinfo) ∧
    '@' ∉ hostinfo ∧ PortText hostinfo port ∧
    (port = [] ∧ p = default ∨ port ≠ [] ∧ Decimal port p ∧ p ≤ 65535)

/-- The authority passes the checks that `urllib` makes: brackets match and
enclose something it accepts, and NFKC does not introduce delimiters. -/
def NetlocOk (env : Env) (netloc : List Char) : Prop :=
  ('[' ∈ netloc ↔ ']' ∈ netloc) ∧
  (∀ pre body post, netloc = pre ++ '[' :: body ++ post → '[' ∉ pre → ']' ∉ body →
    (post = [] ∨ ∃ r, post = ']' :: r) → env.bracketOk body = true) ∧
  ((∃ c ∈ netloc, 128 ≤ c.toNat) → env.nfkcBad netloc = false)

/-- `lower` is the ASCII lower-casing of `s`. -/
def LowerCase (s lower : List Char) : Prop :=
  s.map (fun c => if 'A' ≤ c ∧ c ≤ 'Z' then Char.ofNat (c.toNat + 32) else c) = lower

/-- The string `s` is an http(s) origin with the given parts.  The trailing
alternatives are empty query and fragment markers. -/
def OriginOf (env : Env) (s : String) (o : Origin) : Prop :=
  (∃ a b, s.toList = a ++ ':' :: '/' :: '/' :: b) ∧
  ∃ scheme netloc tail,
    Cleaned s.toList (scheme ++ ':' :: '/' :: '/' :: netloc ++ tail) ∧
    (tail = [] ∨ tail = ['?'] ∨ tail = ['#'] ∨ tail = ['?', '#']) ∧
    (∀ c ∈ netloc, c ≠ '/' ∧ c ≠ '?' ∧ c ≠ '#') ∧ netloc ≠ [] ∧ NetlocOk env netloc ∧
    LowerCase scheme o.scheme.toList ∧ o.hostname.toList = netloc ∧
    (o.scheme = "http" ∧ PortOf netloc 80 o.port ∨
     o.scheme = "https" ∧ PortOf netloc 443 o.port)

/-- The expected origins as a list. -/
def originList : ExpectedOrigin → List String
  | .one s => [s]
  | .many l => l

/-- The Relying Party's expectation is usable: at least one origin, all of them
well formed. -/
def ExpectedOk (env : Env) (e : ExpectedOrigin) : Prop :=
  originList e ≠ [] ∧ ∀ s ∈ originList e, ∃ o, OriginOf env s o

/-- The client's origin denotes the same origin as one of the expected ones. -/
def OriginAllowed (env : Env) (e : ExpectedOrigin) (client : String) : Prop :=
  ∃ o, OriginOf env client o ∧ ∃ s ∈ originList e, OriginOf env s o

end WebAuthn.Spec
