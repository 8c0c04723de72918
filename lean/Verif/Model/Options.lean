import Verif.Model.Jsonify
import Verif.Model.Types

/-!
# Options and builders

`PublicKeyCredentialCreationOptions`, `PublicKeyCredentialRequestOptions` and the
classes they refer to (types.py 110-290, 342-501, 573-588, 654-713,
771-996) as `jsonify` sees them, and `builders.py`.

The attributes have the annotated types.  An attribute annotated `Sequence` may
hold a list, a tuple or another sequence.
-/

namespace WebAuthn

/-- A sequence: a `list`, a `tuple`, or one of another type without `__dict__`
(a `deque`, a `range`). -/
inductive SeqKind where
  | list | tuple | other
  deriving DecidableEq, Repr

structure PySeq (α : Type) where
  kind : SeqKind := .list
  items : List α
  deriving DecidableEq, Repr

/-- `AuthenticatorTransport` (types.py 261-290). -/
inductive Transport where
  | USB | NFC | BLE | INTERNAL
  deriving DecidableEq, Repr

/-- `AuthenticatorAttachment` (types.py 401-424). -/
inductive Attachment where
  | PLATFORM | CROSS_PLATFORM
  deriving DecidableEq, Repr

/-- `AttestationConveyancePreference` (types.py 427-457). -/
inductive Conveyance where
  | NONE | INDIRECT | DIRECT
  deriving DecidableEq, Repr

/-- `UserVerificationRequirement` (types.py 460-485). -/
inductive Verification where
  | REQUIRED | PREFERRED | DISCOURAGED
  deriving DecidableEq, Repr

/-- `CredentialMediationRequirement` (types.py 946-972). -/
inductive Mediation where
  | SILENT | OPTIONAL | REQUIRED
  deriving DecidableEq, Repr

/-- types.py 286-290. -/
def Transport.value : Transport → String
  | .USB => "usb"
  | .NFC => "nfc"
  | .BLE => "ble"
  | .INTERNAL => "internal"

/-- types.py 423-424. -/
def Attachment.value : Attachment → String
  | .PLATFORM => "platform"
  | .CROSS_PLATFORM => "cross-platform"

/-- types.py 455-457. -/
def Conveyance.value : Conveyance → String
  | .NONE => "none"
  | .INDIRECT => "indirect"
  | .DIRECT => "direct"

/-- types.py 483-485. -/
def Verification.value : Verification → String
  | .REQUIRED => "required"
  | .PREFERRED => "preferred"
  | .DISCOURAGED => "discouraged"

/-- types.py 970-972. -/
def Mediation.value : Mediation → String
  | .SILENT => "silent"
  | .OPTIONAL => "optional"
  | .REQUIRED => "required"

/-- `PublicKeyCredentialParameters` (types.py 342-363); the `type` is always
`PUBLIC_KEY`, the only member of its class. -/
structure Parameters where
  alg : NV Alg
  deriving DecidableEq, Repr

/-- `PublicKeyCredentialDescriptor` (types.py 366-398). -/
structure FullDescriptor where
  id : Bytes
  transports : Option (PySeq Transport) := none
  deriving DecidableEq, Repr

/-- `TxAuthGenericArg` (types.py 488-501). -/
structure TxAuthGenericArg where
  contentType : String
  content : Bytes
  deriving DecidableEq, Repr

/-- `AuthenticatorBiometricPerfBounds` (types.py 573-588). -/
structure PerfBounds where
  FAR : Num
  FRR : Num
  deriving DecidableEq, Repr

/-- `AuthenticationExtensionsClientInputs` (types.py 654-713). -/
structure ExtensionInputs where
  appid : Option String := none
  txAuthSimple : Option String := none
  txAuthGeneric : Option TxAuthGenericArg := none
  authnSel : Option (PySeq Bytes) := none
  exts : Option Bool := none
  uvi : Option Bool := none
  loc : Option Bool := none
  uvm : Option Bool := none
  biometricPerfBounds : Option PerfBounds := none
  deriving DecidableEq, Repr

/-- `AuthenticatorSelectionCriteria` (types.py 771-805). -/
structure Selection where
  authenticatorAttachment : Option Attachment := none
  requireResidentKey : Bool := false
  userVerification : Verification := .PREFERRED
  deriving DecidableEq, Repr

/-- `PublicKeyCredentialCreationOptions` (types.py 808-873) inside
`CredentialCreationOptions` (types.py 929-943). -/
structure CreationOptions where
  rp : RpEntity
  user : UserEntity
  challenge : Bytes
  pubKeyCredParams : PySeq Parameters
  timeout : Option Int
  excludeCredentials : Option (PySeq FullDescriptor)
  authenticatorSelection : Option Selection
  attestation : Conveyance
  extensions : Option ExtensionInputs
  deriving DecidableEq, Repr

/-- `PublicKeyCredentialRequestOptions` (types.py 876-926) with the `mediation` of
the surrounding `CredentialRequestOptions` (types.py 975-996). -/
structure RequestOptions where
  mediation : Mediation
  challenge : Bytes
  timeout : Option Int
  rpId : Option String
  allowCredentials : Option (PySeq FullDescriptor)
  userVerification : Option Verification
  extensions : Option ExtensionInputs
  deriving DecidableEq, Repr

/-! ## As objects

`__dict__` holds the attributes in the order in which `__init__` assigns them. -/

/-- An attribute that may be `None`. -/
def optObj {α : Type} (f : α → Obj) : Option α → Obj
  | none => .none
  | some a => f a

def PySeq.toObj {α : Type} (f : α → Obj) (s : PySeq α) : Obj :=
  match s.kind with
  | .list => .list (s.items.map f)
  | .tuple => .tuple (s.items.map f)
  | .other => .other

def Num.toObj : Num → Obj
  | .int n => .int n
  | .float f => .float f

def NV.algObj (a : NV Alg) : Obj :=
  match nvValue Alg.nameTable Alg.valueTable a with
  | .str s => .enum (.str s)
  | .int n => .enum (.int n)
  | _ => .enum .none

/-- types.py 178-183 after 134-140. -/
def RpEntity.toObj (r : RpEntity) : Obj :=
  .inst [(.str "name", .str r.name), (.str "icon", optObj .str r.icon), (.str "id", .str r.id)]

/-- types.py 231-240 after 134-140. -/
def UserEntity.toObj (u : UserEntity) : Obj :=
  .inst [(.str "name", .str u.name), (.str "icon", optObj .str u.icon), (.str "id", .bytes u.id),
    (.str "display_name", .str u.displayName)]

/-- types.py 362-363. -/
def Parameters.toObj (p : Parameters) : Obj :=
  .inst [(.str "type", .enum (.str "public-key")), (.str "alg", p.alg.algObj)]

/-- types.py 396-398. -/
def FullDescriptor.toObj (d : FullDescriptor) : Obj :=
  .inst [(.str "type", .enum (.str "public-key")), (.str "id", .bytes d.id),
    (.str "transports", optObj (PySeq.toObj fun t => .enum (.str t.value)) d.transports)]

/-- types.py 500-501. -/
def TxAuthGenericArg.toObj (t : TxAuthGenericArg) : Obj :=
  .inst [(.str "content_type", .str t.contentType), (.str "content", .bytes t.content)]

/-- types.py 587-588. -/
def PerfBounds.toObj (p : PerfBounds) : Obj :=
  .inst [(.str "FAR", p.FAR.toObj), (.str "FRR", p.FRR.toObj)]

/-- types.py 705-713. -/
def ExtensionInputs.toObj (e : ExtensionInputs) : Obj :=
  .inst [(.str "appid", optObj .str e.appid), (.str "tx_auth_simple", optObj .str e.txAuthSimple),
    (.str "tx_auth_generic", optObj TxAuthGenericArg.toObj e.txAuthGeneric),
    (.str "authn_sel", optObj (PySeq.toObj .bytes) e.authnSel), (.str "exts", optObj .bool e.exts),
    (.str "uvi", optObj .bool e.uvi), (.str "loc", optObj .bool e.loc),
    (.str "uvm", optObj .bool e.uvm),
    (.str "biometric_perf_bounds", optObj PerfBounds.toObj e.biometricPerfBounds)]

/-- types.py 803-805. -/
def Selection.toObj (s : Selection) : Obj :=
  .inst [(.str "authenticator_attachment", optObj (fun a => .enum (.str a.value))
      s.authenticatorAttachment),
    (.str "require_resident_key", .bool s.requireResidentKey),
    (.str "user_verification", .enum (.str s.userVerification.value))]

/-- types.py 865-873 and 943. -/
def CreationOptions.toObj (o : CreationOptions) : Obj :=
  .inst [(.str "public_key", .inst [(.str "rp", o.rp.toObj), (.str "user", o.user.toObj),
    (.str "challenge", .bytes o.challenge),
    (.str "pub_key_cred_params", o.pubKeyCredParams.toObj Parameters.toObj),
    (.str "timeout", optObj .int o.timeout),
    (.str "exclude_credentials", optObj (PySeq.toObj FullDescriptor.toObj) o.excludeCredentials),
    (.str "authenticator_selection", optObj Selection.toObj o.authenticatorSelection),
    (.str "attestation", .enum (.str o.attestation.value)),
    (.str "extensions", optObj ExtensionInputs.toObj o.extensions)])]

/-- types.py 921-926 and 995-996. -/
def RequestOptions.toObj (o : RequestOptions) : Obj :=
  .inst [(.str "mediation", .enum (.str o.mediation.value)),
    (.str "public_key", .inst [(.str "challenge", .bytes o.challenge),
      (.str "timeout", optObj .int o.timeout), (.str "rp_id", optObj .str o.rpId),
      (.str "allow_credentials", optObj (PySeq.toObj FullDescriptor.toObj) o.allowCredentials),
      (.str "user_verification", optObj (fun v => .enum (.str v.value)) o.userVerification),
      (.str "extensions", optObj ExtensionInputs.toObj o.extensions)])]

/-! ## Builders

The record layer: a builder is the record of its attributes and a setter returns
a new record.  That the copies which the setters make do behave like this is the
subject of `Model/Heap.lean`. -/

/-- The attributes of `CredentialCreationOptionsBuilder` (builders.py 36-77). -/
structure CreationBuilder where
  rp : Option RpEntity := none
  pubKeyCredParams : Option (PySeq Parameters) := none
  timeout : Option Int := none
  authenticatorSelection : Option Selection := none
  extensions : Option ExtensionInputs := none
  attestation : Option Conveyance := some .NONE
  excludeCredentials : Option (PySeq FullDescriptor) := none
  deriving DecidableEq, Repr

/-- A call of a setter of `CredentialCreationOptionsBuilder`. -/
inductive CreationSetter where
  | rp (v : Option RpEntity)
  | pubKeyCredParams (v : Option (PySeq Parameters))
  | timeout (v : Option Int)
  | authenticatorSelection (v : Option Selection)
  | extensions (v : Option ExtensionInputs)
  | attestation (v : Option Conveyance)
  | excludeCredentials (v : Option (PySeq FullDescriptor))

/-- builders.py 82-192. -/
def CreationBuilder.set (b : CreationBuilder) : CreationSetter → Py CreationBuilder
  | .rp none => .error .assertionError
  | .rp (some v) => .ok { b with rp := some v }
  | .pubKeyCredParams none => .error .assertionError
  | .pubKeyCredParams (some v) => .ok { b with pubKeyCredParams := some v }
  | .timeout v => .ok { b with timeout := v }
  | .authenticatorSelection v => .ok { b with authenticatorSelection := v }
  | .extensions v => .ok { b with extensions := v }
  | .attestation none => .error .assertionError
  | .attestation (some v) => .ok { b with attestation := some v }
  | .excludeCredentials v => .ok { b with excludeCredentials := v }

/-- builders.py 194-236. -/
def CreationBuilder.build (b : CreationBuilder) (user : Option UserEntity)
    (challenge : Option Bytes) : Py CreationOptions := do
  let user ← (match user with
    | none => .error .assertionError
    | some u => .ok u)
  let challenge ← (match challenge with
    | none => .error .assertionError
    | some c => .ok c)
  let rp ← (match b.rp with
    | none => raise .builder
    | some v => .ok v)
  let params ← (match b.pubKeyCredParams with
    | none => raise .builder
    | some v => .ok v)
  let attestation ← (match b.attestation with
    | none => raise .builder
    | some v => .ok v)
  return {
    rp := rp
    user := user
    challenge := challenge
    pubKeyCredParams := params
    timeout := b.timeout
    authenticatorSelection := b.authenticatorSelection
    extensions := b.extensions
    attestation := attestation
    excludeCredentials := b.excludeCredentials }

/-- The attributes of `CredentialRequestOptionsBuilder` (builders.py 255-284). -/
structure RequestBuilder where
  mediation : Option Mediation := some .OPTIONAL
  timeout : Option Int := none
  rpId : Option String := none
  extensions : Option ExtensionInputs := none
  userVerification : Option Verification := some .PREFERRED
  deriving DecidableEq, Repr

/-- A call of a setter of `CredentialRequestOptionsBuilder`. -/
inductive RequestSetter where
  | mediation (v : Option Mediation)
  | timeout (v : Option Int)
  | rpId (v : Option String)
  | extensions (v : Option ExtensionInputs)
  | userVerification (v : Option Verification)

/-- builders.py 289-365. -/
def RequestBuilder.set (b : RequestBuilder) : RequestSetter → Py RequestBuilder
  | .mediation none => .error .assertionError
  | .mediation (some v) => .ok { b with mediation := some v }
  | .timeout v => .ok { b with timeout := v }
  | .rpId v => .ok { b with rpId := v }
  | .extensions v => .ok { b with extensions := v }
  | .userVerification v => .ok { b with userVerification := v }

/-- builders.py 367-402. -/
def RequestBuilder.build (b : RequestBuilder) (challenge : Option Bytes)
    (allow : Option (PySeq FullDescriptor)) : Py RequestOptions := do
  let challenge ← (match challenge with
    | none => .error .assertionError
    | some c => .ok c)
  let mediation ← (match b.mediation with
    | none => raise .builder
    | some v => .ok v)
  return {
    mediation := mediation
    challenge := challenge
    timeout := b.timeout
    rpId := b.rpId
    extensions := b.extensions
    allowCredentials := allow
    userVerification := b.userVerification }

/-- A chain of setter calls. -/
def CreationBuilder.setAll (b : CreationBuilder) : List CreationSetter → Py CreationBuilder
  | [] => .ok b
  | s :: ss => do
    let b' ← b.set s
    b'.setAll ss

/-- A chain of setter calls. -/
def RequestBuilder.setAll (b : RequestBuilder) : List RequestSetter → Py RequestBuilder
  | [] => .ok b
  | s :: ss => do
    let b' ← b.set s
    b'.setAll ss

end WebAuthn
