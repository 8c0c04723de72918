import Verif.Model.Heap

/-!
# Specification of the builders as objects
-/

namespace WebAuthn.Spec

open Heap

/-- What can be seen of a value by following references, to a given depth. -/
inductive Tree where
  | cut
  | none
  | atom (v : PyVal)
  | member (cls name : String)
  | node (tag : String) (slots : List Tree)

def view (h : Heap) : Nat → Val → Tree
  | _, .none => .none
  | _, .atom v => .atom v
  | _, .member c m => .member c m
  | 0, .ref _ => .cut
  | n + 1, .ref a =>
    match h[a]? with
    | some c => .node c.tag (c.slots.map (view h n))
    | none => .cut

/-- The value `v` in `h` and the value `v'` in `h'` look the same at every
depth. -/
def SameView (h : Heap) (v : Val) (h' : Heap) (v' : Val) : Prop := ∀ n, view h n v = view h' n v'

/-- The value refers to an existing object, if to any. -/
def ValidVal (h : Heap) : Val → Prop
  | .ref a => a < h.length
  | _ => True

/-- No dangling references. -/
def WellFormed (h : Heap) : Prop := ∀ c ∈ h, ∀ v ∈ c.slots, ValidVal h v

/-- The object at `a` can be reached from the value. -/
inductive Reach (h : Heap) : Val → Addr → Prop
  | here (a : Addr) : Reach h (.ref a) a
  | step (a x : Addr) (c : Cell) (v : Val) :
      h[a]? = some c → v ∈ c.slots → Reach h v x → Reach h (.ref a) x

/-- The attributes of the classes, in the order of assignment in `__init__`. -/
def attributesOf : String → List String
  -- builders.py 71-77
  | "CredentialCreationOptionsBuilder" => ["rp", "pub_key_cred_params", "timeout",
      "authenticator_selection", "extensions", "attestation", "exclude_credentials"]
  -- builders.py 280-284
  | "CredentialRequestOptionsBuilder" => ["mediation", "timeout", "rp_id", "extensions",
      "user_verification"]
  -- types.py 865-873
  | "PublicKeyCredentialCreationOptions" => ["rp", "user", "challenge", "pub_key_cred_params",
      "timeout", "exclude_credentials", "authenticator_selection", "attestation", "extensions"]
  -- types.py 921-926
  | "PublicKeyCredentialRequestOptions" => ["challenge", "timeout", "rp_id", "allow_credentials",
      "user_verification", "extensions"]
  -- types.py 943
  | "CredentialCreationOptions" => ["public_key"]
  -- types.py 995-996
  | "CredentialRequestOptions" => ["mediation", "public_key"]
  | _ => []

/-- The value of the attribute `name` of the object at `a`; for a builder, of the
attribute `_name`. -/
def attributeOf (h : Heap) (a : Addr) (name : String) : Option Val :=
  match h[a]? with
  | some c => ((attributesOf c.tag).zip c.slots).lookup name
  | none => none

/-- There is an instance of `cls` at `a`, with all its attributes. -/
def IsA (h : Heap) (cls : String) (a : Addr) : Prop :=
  ∃ c, h[a]? = some c ∧ c.tag = cls ∧ c.slots.length = (attributesOf cls).length

end WebAuthn.Spec
