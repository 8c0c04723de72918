import Verif.Model.Py

/-!
# Builders as objects: setters, `deepcopy` and aliasing

The setters of both builders (builders.py 79-192, 286-365) call
`copy.deepcopy(self)` and assign one attribute of the copy.  This file models the
objects and references that the record layer of `Model/Options.lean` leaves out.

`deepcopy` is the standard library function.  A heap cell is an instance together
with its `__dict__`, or a list.  Immutable values are copied by reference; enum
members too (`Enum.__deepcopy__` returns `self`).
-/

namespace WebAuthn.Heap

abbrev Addr := Nat

/-- A value: `None`, an immutable value, an enum member, or a reference. -/
inductive Val where
  | none
  | atom (v : PyVal)
  | member (cls name : String)
  | ref (a : Addr)

/-- An object: `tag` is the class, for an instance with the names of its
attributes; `slots` are the attribute values or the elements. -/
structure Cell where
  tag : String
  slots : List Val

/-- The objects in the order in which they were created. -/
abbrev Heap := List Cell

/-- The state of a run of `deepcopy`: the heap and the `memo` dictionary. -/
structure CopySt where
  heap : Heap
  memo : Addr → Option Addr

/-- Copy the attributes one after the other. -/
def copySlots (copy : CopySt → Val → Option (CopySt × Val)) :
    CopySt → List Val → Option (CopySt × List Val)
  | s, [] => some (s, [])
  | s, v :: vs => do
    let (s, v') ← copy s v
    let (s, vs') ← copySlots copy s vs
    return (s, v' :: vs')

/-- Create the object `c` for the original at `a`, note it in the memo, copy the
attributes and assign them. -/
def copyCell (copy : CopySt → Val → Option (CopySt × Val)) (s : CopySt) (a : Addr) (c : Cell) :
    Option (CopySt × Val) := do
  let b := s.heap.length
  let (s, slots) ← copySlots copy
    ⟨s.heap ++ [⟨c.tag, []⟩], fun x => if x = a then some b else s.memo x⟩ c.slots
  return (⟨s.heap.set b ⟨c.tag, slots⟩, s.memo⟩, .ref b)

/-- `copy.deepcopy(v, memo)`: a value met before is looked up in the memo.  `n`
bounds the depth of the recursion; `none` means that it was exceeded or that there
is a dangling reference. -/
def copyVal : Nat → CopySt → Val → Option (CopySt × Val)
  | 0, s, .ref a =>
    match s.memo a with
    | some b => some (s, .ref b)
    | none => none
  | n + 1, s, .ref a =>
    match s.memo a with
    | some b => some (s, .ref b)
    | none =>
      match s.heap[a]? with
      | some c => copyCell (copyVal n) s a c
      | none => none
  | _, s, .none => some (s, .none)
  | _, s, .atom v => some (s, .atom v)
  | _, s, .member c m => some (s, .member c m)

/-- `copy.deepcopy` of the object at `a`. -/
def deepcopy (h : Heap) (a : Addr) : Option (Heap × Addr) :=
  match copyVal h.length ⟨h, fun _ => none⟩ (.ref a) with
  | some (s, .ref b) => some (s.heap, b)
  | _ => none

/-- `c = self._copy(); c.<attribute i> = v; return c` (builders.py 82-192,
289-365). -/
def setAttr (h : Heap) (b : Addr) (i : Nat) (v : Val) : Option (Heap × Addr) := do
  let (h, b') ← deepcopy h b
  let c ← h[b']?
  return (h.set b' ⟨c.tag, c.slots.set i v⟩, b')

/-- What a program does that creates objects and builders and calls setters, from
the heap `h`.  `alloc` is any expression that creates an object from existing
ones: a list, a descriptor, the constructor of a builder, the options made by
`build`.  Expressions only mention existing objects. -/
inductive Hist (h : Heap) : Heap → Prop
  | refl : Hist h h
  | alloc (h' : Heap) (c : Cell) : Hist h h' → (∀ a, .ref a ∈ c.slots → a < h'.length) →
      Hist h (h' ++ [c])
  | set (h' : Heap) (b : Addr) (i : Nat) (v : Val) (h'' : Heap) (b' : Addr) : Hist h h' →
      b < h'.length → (∀ a, v = .ref a → a < h'.length) → setAttr h' b i v = some (h'', b') →
      Hist h h''

/-- `v is None`. -/
def Val.isNone : Val → Bool
  | .none => true
  | _ => false

/-- `CredentialCreationOptionsBuilder.build` (builders.py 194-236) on objects: the
options refer to the values of the builder.  The attributes of a builder are in
the order of builders.py 71-77.  `none` is `BuilderError`. -/
def buildCreation (h : Heap) (b : Addr) (user challenge : Val) : Option (Heap × Addr) :=
  match h[b]? with
  | some ⟨_, [rp, params, timeout, selection, extensions, attestation, exclude]⟩ =>
    if rp.isNone || params.isNone || attestation.isNone then none
    else some (h ++ [⟨"PublicKeyCredentialCreationOptions", [rp, user, challenge, params, timeout,
      exclude, selection, attestation, extensions]⟩,
      ⟨"CredentialCreationOptions", [.ref h.length]⟩], h.length + 1)
  | _ => none

/-- `CredentialRequestOptionsBuilder.build` (builders.py 367-402) on objects; the
attributes of the builder are in the order of builders.py 280-284. -/
def buildRequest (h : Heap) (b : Addr) (challenge allow : Val) : Option (Heap × Addr) :=
  match h[b]? with
  | some ⟨_, [mediation, timeout, rpId, extensions, verification]⟩ =>
    if mediation.isNone then none
    else some (h ++ [⟨"PublicKeyCredentialRequestOptions", [challenge, timeout, rpId, allow,
      verification, extensions]⟩, ⟨"CredentialRequestOptions", [mediation, .ref h.length]⟩],
      h.length + 1)
  | _ => none

/-- `x.<attribute> = ...`, `l.append(...)`: a program changes the object at `a`. -/
def mutate (h : Heap) (a : Addr) (c : Cell) : Heap := h.set a c

end WebAuthn.Heap
