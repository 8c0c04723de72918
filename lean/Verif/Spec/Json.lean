import Verif.Model.Jsonify
import Verif.Spec.Base64

/-!
# Specification of the conversion to JSON
-/

namespace WebAuthn.Spec

/-- The float is a number: the exponent bits are not all ones. -/
def Finite (f : PyFloat) : Prop := f.bits.toNat / 2 ^ 52 % 2 ^ 11 ≠ 2047

/-- A JSON value (RFC 8259), with members that are never null. -/
inductive JsonValue : PyVal → Prop
  | null : JsonValue .none
  | bool (b : Bool) : JsonValue (.bool b)
  | int (n : Int) : JsonValue (.int n)
  | float (f : PyFloat) : Finite f → JsonValue (.float f)
  | str (s : String) : JsonValue (.str s)
  | list (l : List PyVal) : (∀ v ∈ l, JsonValue v) → JsonValue (.list l)
  | dict (d : Dict) : (∀ kv ∈ d, (∃ s, kv.1 = .str s) ∧ kv.2 ≠ .none) →
      (d.map Prod.fst).Nodup → (∀ kv ∈ d, JsonValue kv.2) → JsonValue (.dict d)

/-- The members of an object that are shown, each under its JSON name: those that
are not `None`, the last one if several have the same JSON name. -/
def ShownMembers (name : String → String) (items : List (Obj × Obj)) (w : List (String × Obj)) :
    Prop :=
  (∀ kv ∈ items, ∃ s, kv.1 = .str s) ∧ (w.map Prod.fst).Nodup ∧
  ∀ n v, (n, v) ∈ w ↔ ∃ pre s post, items = pre ++ (.str s, v) :: post ∧ v ≠ .none ∧ name s = n ∧
    ∀ s' v', (.str s', v') ∈ post → v' ≠ .none → name s' ≠ n

/-- The value `j` shows the object: numbers, texts and `None` as they are, bytes
as a base64 text, an enumeration member as its value, sequences elementwise, and
objects and dictionaries by their members. -/
inductive Shows (name : String → String) : Obj → PyVal → Prop
  | none : Shows name .none .none
  | bool (b : Bool) : Shows name (.bool b) (.bool b)
  | int (n : Int) : Shows name (.int n) (.int n)
  | float (f : PyFloat) : Shows name (.float f) (.float f)
  | str (s : String) : Shows name (.str s) (.str s)
  | bytes (b : Bytes) (t : String) : Encodes64 stdAlphabet t.toList b → Shows name (.bytes b) (.str t)
  | enum (v : Obj) (j : PyVal) : Shows name v j → Shows name (.enum v) j
  | list (l : List (Obj × PyVal)) : (∀ p ∈ l, Shows name p.1 p.2) →
      Shows name (.list (l.map Prod.fst)) (.list (l.map Prod.snd))
  | tuple (l : List (Obj × PyVal)) : (∀ p ∈ l, Shows name p.1 p.2) →
      Shows name (.tuple (l.map Prod.fst)) (.list (l.map Prod.snd))
  | dict (items : List (Obj × Obj)) (w : List (String × Obj × PyVal)) :
      ShownMembers name items (w.map fun m => (m.1, m.2.1)) →
      (∀ m ∈ w, Shows name m.2.1 m.2.2) →
      Shows name (.dict items) (.dict (w.map fun m => (.str m.1, m.2.2)))
  | inst (items : List (Obj × Obj)) (w : List (String × Obj × PyVal)) :
      ShownMembers name items (w.map fun m => (m.1, m.2.1)) →
      (∀ m ∈ w, Shows name m.2.1 m.2.2) →
      Shows name (.inst items) (.dict (w.map fun m => (.str m.1, m.2.2)))

/-- The object is built of supported types, with string keys. -/
inductive Supported : Obj → Prop
  | none : Supported .none
  | bool (b : Bool) : Supported (.bool b)
  | int (n : Int) : Supported (.int n)
  | float (f : PyFloat) : Supported (.float f)
  | str (s : String) : Supported (.str s)
  | bytes (b : Bytes) : Supported (.bytes b)
  | enum (v : Obj) : Supported v → Supported (.enum v)
  | list (l : List Obj) : (∀ x ∈ l, Supported x) → Supported (.list l)
  | tuple (l : List Obj) : (∀ x ∈ l, Supported x) → Supported (.tuple l)
  | dict (d : List (Obj × Obj)) : (∀ kv ∈ d, ∃ s, kv.1 = .str s) →
      (∀ kv ∈ d, Supported kv.2) → Supported (.dict d)
  | inst (d : List (Obj × Obj)) : (∀ kv ∈ d, ∃ s, kv.1 = .str s) →
      (∀ kv ∈ d, Supported kv.2) → Supported (.inst d)

/-- All floats are finite and no enumeration member has the value `None`. -/
inductive Regular : Obj → Prop
  | none : Regular .none
  | bool (b : Bool) : Regular (.bool b)
  | int (n : Int) : Regular (.int n)
  | float (f : PyFloat) : Finite f → Regular (.float f)
  | str (s : String) : Regular (.str s)
  | bytes (b : Bytes) : Regular (.bytes b)
  | enum (v : Obj) : v ≠ .none → Regular v → Regular (.enum v)
  | list (l : List Obj) : (∀ x ∈ l, Regular x) → Regular (.list l)
  | tuple (l : List Obj) : (∀ x ∈ l, Regular x) → Regular (.tuple l)
  | dict (d : List (Obj × Obj)) : (∀ kv ∈ d, Regular kv.2) → Regular (.dict d)
  | inst (d : List (Obj × Obj)) : (∀ kv ∈ d, Regular kv.2) → Regular (.inst d)
  | other : Regular .other

/-- All floats are finite. -/
inductive FiniteFloats : Obj → Prop
  | none : FiniteFloats .none
  | bool (b : Bool) : FiniteFloats (.bool b)
  | int (n : Int) : FiniteFloats (.int n)
  | float (f : PyFloat) : Finite f → FiniteFloats (.float f)
  | str (s : String) : FiniteFloats (.str s)
  | bytes (b : Bytes) : FiniteFloats (.bytes b)
  | enum (v : Obj) : FiniteFloats v → FiniteFloats (.enum v)
  | list (l : List Obj) : (∀ x ∈ l, FiniteFloats x) → FiniteFloats (.list l)
  | tuple (l : List Obj) : (∀ x ∈ l, FiniteFloats x) → FiniteFloats (.tuple l)
  | dict (d : List (Obj × Obj)) : (∀ kv ∈ d, FiniteFloats kv.2) → FiniteFloats (.dict d)
  | inst (d : List (Obj × Obj)) : (∀ kv ∈ d, FiniteFloats kv.2) → FiniteFloats (.inst d)
  | other : FiniteFloats .other

mutual

/-- The value without the null members of its objects. -/
def withoutNulls : PyVal → PyVal
  | .list l => .list (withoutNullsList l)
  | .dict d => .dict (withoutNullsDict d)
  | v => v

def withoutNullsList : List PyVal → List PyVal
  | [] => []
  | v :: l => withoutNulls v :: withoutNullsList l

def withoutNullsDict : List (PyVal × PyVal) → List (PyVal × PyVal)
  | [] => []
  | (_, .none) :: d => withoutNullsDict d
  | (k, v) :: d => (k, withoutNulls v) :: withoutNullsDict d

end

end WebAuthn.Spec
