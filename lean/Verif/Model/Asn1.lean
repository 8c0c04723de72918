import Verif.Model.Py

/-!
# `webauthn_rp/asn1.py`

The ASN.1 types of the Android key attestation extension, and the operations of
`pyasn1` objects that `attest_android_key` uses.  The decoder is a dependency
(`Env.decodeDer`).
-/

namespace WebAuthn.Asn1

mutual

/-- The types of `pyasn1.type.univ` that `asn1.py` uses. -/
inductive Ty where
  | integer | boolean | enumerated | octetString | null
  | setOf (t : Ty)
  | sequence (fs : Fields)

/-- `NamedTypes`: each component has a name, may be optional and may have an
explicit tag of the context class. -/
inductive Fields where
  | nil
  | cons (name : String) (optional : Bool) (tag : Option Nat) (ty : Ty) (rest : Fields)

end

/-- A decoded value.  A `Sequence` has the components that were present. -/
inductive Val where
  | integer (n : Int)
  | boolean (b : Bool)
  | enumerated (n : Int)
  | octets (b : Bytes)
  | null
  | set (l : List Val)
  | sequence (cs : List (String × Val))

/-- `NamedType(name, ty)`. -/
def req (name : String) (ty : Ty) (rest : Fields) : Fields := .cons name false none ty rest

/-- `OptionalNamedType(name, ty.subtype(explicitTag=Tag(tagClassContext,
tagFormatSimple, tag)))`. -/
def opt (name : String) (tag : Nat) (ty : Ty) (rest : Fields) : Fields :=
  .cons name true (some tag) ty rest

/-- `SecurityLevel` (asn1.py 16-22).  `componentType` is no attribute that
`Enumerated` reads, so any number is a value. -/
def securityLevel : Ty := .enumerated

/-- `VerifiedBootState` (asn1.py 25-34). -/
def verifiedBootState : Ty := .enumerated

/-- `RootOfTrust` (asn1.py 37-48). -/
def rootOfTrust : Ty := .sequence <|
  req "verifiedBootKey" .octetString <|
  req "deviceLocked" .boolean <|
  req "verifiedBootState" verifiedBootState <|
  req "verifiedBootHash" .octetString <|
  .nil

/-- `AuthorizationList` (asn1.py 51-206). -/
def authorizationList : Ty := .sequence <|
  opt "purpose" 1 (.setOf .integer) <|
  opt "algorithm" 2 .integer <|
  opt "keySize" 3 .integer <|
  opt "digest" 5 (.setOf .integer) <|
  opt "padding" 6 (.setOf .integer) <|
  opt "ecCurve" 10 .integer <|
  opt "rsaPublicExponent" 200 .integer <|
  opt "rollbackResistance" 303 .null <|
  opt "activeDateTime" 400 .integer <|
  opt "originationExpireDateTime" 401 .integer <|
  opt "usageExpireDateTime" 402 .integer <|
  opt "noAuthRequired" 503 .null <|
  opt "userAuthType" 504 .integer <|
  opt "authTimeout" 505 .integer <|
  opt "allowWhileOnBody" 506 .null <|
  opt "trustedUserPresenceRequired" 507 .null <|
  opt "trustedConfirmationRequired" 508 .null <|
  opt "unlockedDeviceRequired" 509 .null <|
  opt "allApplications" 600 .null <|
  opt "applicationId" 601 .octetString <|
  opt "creationDateTime" 701 .integer <|
  opt "origin" 702 .integer <|
  opt "rollbackResistant" 703 .null <|
  opt "rootOfTrust" 704 rootOfTrust <|
  opt "osVersion" 705 .integer <|
  opt "osPatchLevel" 706 .integer <|
  opt "attestationApplicationId" 709 .octetString <|
  opt "attestationIdBrand" 710 .octetString <|
  opt "attestationIdDevice" 711 .octetString <|
  opt "attestationIdProduct" 712 .octetString <|
  opt "attestationIdSerial" 713 .octetString <|
  opt "attestationIdImei" 714 .octetString <|
  opt "attestationIdMeid" 715 .octetString <|
  opt "attestationIdManufacturer" 716 .octetString <|
  opt "attestationIdModel" 717 .octetString <|
  opt "vendorPatchLevel" 718 .integer <|
  opt "bootPatchLevel" 719 .integer <|
  .nil

/-- `KeyDescription` (asn1.py 209-224). -/
def keyDescription : Ty := .sequence <|
  req "attestationVersion" .integer <|
  req "attestationSecurityLevel" securityLevel <|
  req "keymasterVersion" .integer <|
  req "keymasterSecurityLevel" securityLevel <|
  req "attestationChallenge" .octetString <|
  req "uniqueId" .octetString <|
  req "softwareEnforced" authorizationList <|
  req "teeEnforced" authorizationList <|
  .nil

/-! ## Objects -/

/-- The type of the component `name`. -/
def Fields.find : Fields → String → Option Ty
  | .nil, _ => none
  | .cons n _ _ ty rest, name => if n = name then some ty else rest.find name

/-- A `pyasn1` object: its type, and its value if it has one. -/
structure Obj where
  ty : Ty
  val : Option Val

/-- The component `name` of a value, if it has one. -/
def child (v : Option Val) (name : String) : Option Val :=
  match v with
  | some (.sequence cs) => cs.lookup name
  | _ => none

/-- `o[name]`: an absent component is an object without a value; `KeyError` if the
type has no such component. -/
def Obj.item (o : Obj) (name : String) : Py Obj :=
  match o.ty with
  | .sequence fs =>
    match fs.find name with
    | some ty => .ok ⟨ty, child o.val name⟩
    | none => .error .keyError
  | _ => .error .typeError

/-- `o.hasValue()`. -/
def Obj.hasValue (o : Obj) : Bool := o.val.isSome

/-- `o.asOctets()`. -/
def Obj.asOctets (o : Obj) : Py Bytes :=
  match o.val with
  | some (.octets b) => .ok b
  | _ => .error .attributeError

/-- `int(o)`. -/
def Obj.toInt (o : Obj) : Py Int :=
  match o.val with
  | some (.integer n) => .ok n
  | _ => .error .typeError

/-- `x == n` for an element of a set. -/
def Val.isInt (n : Int) : Val → Bool
  | .integer m => m == n
  | _ => false

/-- `o.count(n)`. -/
def Obj.count (o : Obj) (n : Int) : Py Nat :=
  match o.val with
  | some (.set l) => .ok (l.countP (Val.isInt n))
  | _ => .error .attributeError

end WebAuthn.Asn1
