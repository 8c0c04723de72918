import Verif.Model.Utils
import Verif.Model.Base64

/-!
# `jsonify` (converters.py 31-73)
-/

namespace WebAuthn

/-- A Python object as `jsonify` sees it.  `inst d` is an object that is no `Enum`
and has an attribute `__dict__` which is a `dict` with the items `d`; `enum v` is
an `Enum` member with value `v`; `other` is any object without `__dict__` whose
type is none of the ones named in the function (a `set`, a `bytearray`, ...), or
whose `__dict__` is not a `dict` (a class).  Objects are finite and acyclic:
`RecursionError` is not modelled. -/
inductive Obj where
  | none
  | bool (b : Bool)
  | int (n : Int)
  | float (f : PyFloat)
  | str (s : String)
  | bytes (b : Bytes)
  | list (l : List Obj)
  | tuple (l : List Obj)
  | dict (d : List (Obj × Obj))
  | enum (value : Obj)
  | inst (d : List (Obj × Obj))
  | other

/-- `v is None`. -/
def Obj.isNone : Obj → Bool
  | .none => true
  | _ => false

/-- `type(k) is str`. -/
def Obj.isStr : Obj → Bool
  | .str _ => true
  | _ => false

/-- `d[k] = v` on a dictionary with string keys: an old entry keeps its place. -/
def Dict.put : Dict → String → PyVal → Dict
  | [], k, v => [(.str k, v)]
  | (k', v') :: d, k, v =>
    if k'.isKey (.str k) then (k', v) :: d else (k', v') :: Dict.put d k v

/-- `snake_to_camel_case(k) if convert_case else k` (converters.py 60). -/
def memberName (convertCase : Bool) (k : String) : String :=
  if convertCase then snakeToCamel k else k

mutual

/-- `jsonify` (converters.py 31-73). -/
def jsonify (cc : Bool) : Obj → Py PyVal
  | .enum v => jsonify cc v
  | .inst d =>
    if d.all (fun kv => kv.1.isStr) then do return .dict (← jsonifyItems cc d [])
    else raise .jsonConversion
  | .dict d =>
    if d.all (fun kv => kv.1.isStr) then do return .dict (← jsonifyItems cc d [])
    else raise .jsonConversion
  | .bytes b => .ok (.str (Base64.b64encode b))
  | .str s => .ok (.str s)
  | .int n => .ok (.int n)
  | .float f => .ok (.float f)
  | .bool b => .ok (.bool b)
  | .list l => do return .list (← jsonifyList cc l)
  | .tuple l => do return .list (← jsonifyList cc l)
  | .none => .ok .none
  | .other => raise .unimplemented

/-- `[jsonify(x, convert_case) for x in data]` (converters.py 68). -/
def jsonifyList (cc : Bool) : List Obj → Py (List PyVal)
  | [] => .ok []
  | x :: xs => do
    let v ← jsonify cc x
    let vs ← jsonifyList cc xs
    return v :: vs

/-- The comprehension of converters.py 60-62; all keys are strings here. -/
def jsonifyItems (cc : Bool) : List (Obj × Obj) → Dict → Py Dict
  | [], acc => .ok acc
  | (.str k, v) :: d, acc =>
    if v.isNone then jsonifyItems cc d acc
    else do
      let j ← jsonify cc v
      jsonifyItems cc d (acc.put (memberName cc k) j)
  | _ :: d, acc => jsonifyItems cc d acc

end

end WebAuthn
