import Verif.Spec.Page

/-!
# Options that a client takes

The conditions under which a conforming client goes on to ask the user, instead of raising an
exception (Web Authentication, section 5.1.3 for creations, 5.1.4.1 for requests): the types of the
members in the interface definitions (5.4, 5.5, 5.8.3; a client that does not know an enumeration
value ignores it, so values are required to be known here), a user handle of 1 to 64 bytes, some
algorithm for public keys, and an id of the Relying Party that fits the origin of the page.
Challenges have at least 16 bytes (13.4.3).  Ids that are proper suffixes of the host are left
out, as they rest on the list of public suffixes.
-/

namespace WebAuthn.Flask

open WebAuthn WebAuthn.Spec

/-- The member is there, and meets the condition. -/
def Required (d : Dict) (n : String) (P : Check) : Prop := ∃ v, Lookup d (.str n) v ∧ P v

/-- If the member is there, it meets the condition. -/
def IfThere (d : Dict) (n : String) (P : Check) : Prop := ∀ v, Lookup d (.str n) v → P v

def SomeText : Check := fun v => ∃ s, v = .str s

def OneOf (texts : List String) : Check := fun v => ∃ s ∈ texts, v = .str s

def BufferOf (P : Nat → Prop) : Check := fun v => ∃ b, v = .bytes b ∧ P b.length

def UnsignedLong : Check := fun v => ∃ n : Int, v = .int n ∧ 0 ≤ n ∧ n < 2 ^ 32

def Long : Check := fun v => ∃ n : Int, v = .int n ∧ -2 ^ 31 ≤ n ∧ n < 2 ^ 31

def ObjectWith (P : Dict → Prop) : Check := fun v => ∃ d, v = .dict d ∧ P d

def ArrayOf (P : Check) : Check := fun v => ∃ vs, v = .list vs ∧ ∀ w ∈ vs, P w

/-- The host of an origin: between the scheme and the port. -/
def HostOf (origin host : String) : Prop :=
  ':' ∉ host.toList ∧ '/' ∉ host.toList ∧
    ∃ scheme, origin = scheme ++ "://" ++ host ∨ ∃ port, origin = scheme ++ "://" ++ host ++ ":" ++ port

/-- The id of a Relying Party is the host of the page. -/
def IdFor (origin : String) : Check := fun v => ∃ host, v = .str host ∧ HostOf origin host

/-- A `PublicKeyCredentialDescriptor`. -/
def Descriptor : Check :=
  ObjectWith fun d => Required d "type" SomeText ∧ Required d "id" (BufferOf fun _ => True) ∧
    IfThere d "transports" (ArrayOf SomeText)

/-- A `PublicKeyCredentialParameters`. -/
def Parameters : Check :=
  ObjectWith fun d => Required d "type" SomeText ∧ Required d "alg" Long

/-- The client takes the argument of `navigator.credentials.create` on a page of the origin. -/
def TakesCreation (origin : String) (opts : PyVal) : Prop :=
  ∃ d, PublicKeyIn opts d ∧
    Required d "rp" (ObjectWith fun r => Required r "name" SomeText ∧ IfThere r "id" (IdFor origin)) ∧
    Required d "user" (ObjectWith fun u => Required u "name" SomeText ∧
      Required u "displayName" SomeText ∧ Required u "id" (BufferOf fun n => 1 ≤ n ∧ n ≤ 64)) ∧
    Required d "challenge" (BufferOf fun n => 16 ≤ n) ∧
    Required d "pubKeyCredParams" (ArrayOf Parameters) ∧
    -- some are for public keys
    (∃ ps p, Lookup d (.str "pubKeyCredParams") (.list ps) ∧ .dict p ∈ ps ∧
      Lookup p (.str "type") (.str "public-key")) ∧
    IfThere d "timeout" UnsignedLong ∧
    IfThere d "excludeCredentials" (ArrayOf Descriptor) ∧
    IfThere d "authenticatorSelection" (ObjectWith fun _ => True) ∧
    IfThere d "attestation" (OneOf ["none", "indirect", "direct", "enterprise"]) ∧
    IfThere d "extensions" (ObjectWith fun _ => True)

/-- The client takes the argument of `navigator.credentials.get` on a page of the origin. -/
def TakesRequest (origin : String) (opts : PyVal) : Prop :=
  (∃ o, opts = .dict o ∧
    IfThere o "mediation" (OneOf ["silent", "optional", "conditional", "required"])) ∧
  ∃ d, PublicKeyIn opts d ∧
    Required d "challenge" (BufferOf fun n => 16 ≤ n) ∧
    IfThere d "timeout" UnsignedLong ∧
    IfThere d "rpId" (IdFor origin) ∧
    IfThere d "allowCredentials" (ArrayOf Descriptor) ∧
    IfThere d "userVerification" (OneOf ["required", "preferred", "discouraged"]) ∧
    IfThere d "extensions" (ObjectWith fun _ => True)

/-- `secrets.token_bytes(64)` returns 64 bytes (app.py 157, 165, 246). -/
def Drawn (evs : List Event) : Prop :=
  (∀ name hd ch t, .registrationRequest name hd ch t ∈ evs → hd.length = 64 ∧ ch.length = 64) ∧
    ∀ name ch t, .authenticationRequest name ch t ∈ evs → ch.length = 64

end WebAuthn.Flask
