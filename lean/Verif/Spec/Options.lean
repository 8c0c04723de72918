import Verif.Model.Options
import Verif.Spec.Base64

/-!
# Specification of the options

What the options are in JSON: the dictionaries of Web Authentication, sections
5.4, 5.5, 5.10 and 10, member by member.
-/

namespace WebAuthn.Spec

/-- A condition on a JSON value. -/
abbrev Check := PyVal → Prop

/-- A JSON object whose members are exactly the ones listed with a condition, each
meeting its condition. -/
def Members (fields : List (String × Option Check)) : Check := fun v =>
  ∃ d : Dict, v = .dict d ∧ (d.map Prod.fst).Nodup ∧
    (∀ k j, (k, j) ∈ d → ∃ n P, (n, some P) ∈ fields ∧ k = .str n ∧ P j) ∧
    ∀ n P, (n, some P) ∈ fields → ∃ j, (.str n, j) ∈ d ∧ P j

def IsText (s : String) : Check := fun v => v = .str s
def IsInt (n : Int) : Check := fun v => v = .int n
def IsBool (b : Bool) : Check := fun v => v = .bool b
def IsBase64 (b : Bytes) : Check := fun v => ∃ t, v = .str t ∧ Encodes64 stdAlphabet t.toList b
def IsNum : Num → Check
  | .int n => IsInt n
  | .float f => fun v => v = .float f

/-- A JSON array whose elements meet the conditions, in this order. -/
def IsArray {α : Type} (P : α → Check) (s : PySeq α) : Check := fun v =>
  ∃ vs, v = .list vs ∧ List.Forall₂ P s.items vs

/-- The texts of the enumerations, Web Authentication 5.4.4-5.10.5 and Credential
Management 2.3.2. -/
def transportText : Transport → String
  | .USB => "usb" | .NFC => "nfc" | .BLE => "ble" | .INTERNAL => "internal"
def attachmentText : Attachment → String
  | .PLATFORM => "platform" | .CROSS_PLATFORM => "cross-platform"
def conveyanceText : Conveyance → String
  | .NONE => "none" | .INDIRECT => "indirect" | .DIRECT => "direct"
def verificationText : Verification → String
  | .REQUIRED => "required" | .PREFERRED => "preferred" | .DISCOURAGED => "discouraged"
def mediationText : Mediation → String
  | .SILENT => "silent" | .OPTIONAL => "optional" | .REQUIRED => "required"

/-- An algorithm given by number is shown by the number of the COSE registry; one
given by name is shown by the name. -/
def IsAlg : NV Alg → Check
  | .value .ES256 => IsInt (-7)
  | .value .ES384 => IsInt (-35)
  | .value .ES512 => IsInt (-36)
  | .value .EDDSA => IsInt (-8)
  | .name .ES256 => IsText "ES256"
  | .name .ES384 => IsText "ES384"
  | .name .ES512 => IsText "ES512"
  | .name .EDDSA => IsText "EdDSA"

def RpJson (r : RpEntity) : Check :=
  Members [("name", some (IsText r.name)), ("icon", r.icon.map IsText), ("id", some (IsText r.id))]

def UserJson (u : UserEntity) : Check :=
  Members [("name", some (IsText u.name)), ("icon", u.icon.map IsText),
    ("id", some (IsBase64 u.id)), ("displayName", some (IsText u.displayName))]

def ParametersJson (p : Parameters) : Check :=
  Members [("type", some (IsText "public-key")), ("alg", some (IsAlg p.alg))]

def DescriptorJson (d : FullDescriptor) : Check :=
  Members [("type", some (IsText "public-key")), ("id", some (IsBase64 d.id)),
    ("transports", d.transports.map (IsArray fun t => IsText (transportText t)))]

def TxAuthGenericJson (t : TxAuthGenericArg) : Check :=
  Members [("contentType", some (IsText t.contentType)), ("content", some (IsBase64 t.content))]

def PerfBoundsJson (p : PerfBounds) : Check :=
  Members [("FAR", some (IsNum p.FAR)), ("FRR", some (IsNum p.FRR))]

def ExtensionsJson (e : ExtensionInputs) : Check :=
  Members [("appid", e.appid.map IsText), ("txAuthSimple", e.txAuthSimple.map IsText),
    ("txAuthGeneric", e.txAuthGeneric.map TxAuthGenericJson),
    ("authnSel", e.authnSel.map (IsArray IsBase64)), ("exts", e.exts.map IsBool),
    ("uvi", e.uvi.map IsBool), ("loc", e.loc.map IsBool), ("uvm", e.uvm.map IsBool),
    ("biometricPerfBounds", e.biometricPerfBounds.map PerfBoundsJson)]

def SelectionJson (s : Selection) : Check :=
  Members [("authenticatorAttachment",
      s.authenticatorAttachment.map fun a => IsText (attachmentText a)),
    ("requireResidentKey", some (IsBool s.requireResidentKey)),
    ("userVerification", some (IsText (verificationText s.userVerification)))]

/-- The JSON form of the creation options. -/
def CreationJson (o : CreationOptions) : Check :=
  Members [("publicKey", some (Members [
    ("rp", some (RpJson o.rp)), ("user", some (UserJson o.user)),
    ("challenge", some (IsBase64 o.challenge)),
    ("pubKeyCredParams", some (IsArray ParametersJson o.pubKeyCredParams)),
    ("timeout", o.timeout.map IsInt),
    ("excludeCredentials", o.excludeCredentials.map (IsArray DescriptorJson)),
    ("authenticatorSelection", o.authenticatorSelection.map SelectionJson),
    ("attestation", some (IsText (conveyanceText o.attestation))),
    ("extensions", o.extensions.map ExtensionsJson)]))]

/-- The JSON form of the request options. -/
def RequestJson (o : RequestOptions) : Check :=
  Members [("mediation", some (IsText (mediationText o.mediation))),
    ("publicKey", some (Members [
      ("challenge", some (IsBase64 o.challenge)),
      ("timeout", o.timeout.map IsInt), ("rpId", o.rpId.map IsText),
      ("allowCredentials", o.allowCredentials.map (IsArray DescriptorJson)),
      ("userVerification", o.userVerification.map fun v => IsText (verificationText v)),
      ("extensions", o.extensions.map ExtensionsJson)]))]

/-! ## Sequences that `jsonify` knows -/

/-- A list or a tuple. -/
def Listed {α : Type} (s : PySeq α) : Prop := s.kind ≠ .other

/-- A list or tuple of descriptors with lists or tuples of transports. -/
def DescriptorsListed (s : PySeq FullDescriptor) : Prop :=
  Listed s ∧ ∀ d ∈ s.items, ∀ t, d.transports = some t → Listed t

def ExtensionsListed (e : ExtensionInputs) : Prop := ∀ s, e.authnSel = some s → Listed s

def CreationListed (o : CreationOptions) : Prop :=
  Listed o.pubKeyCredParams ∧ (∀ s, o.excludeCredentials = some s → DescriptorsListed s) ∧
    ∀ e, o.extensions = some e → ExtensionsListed e

def RequestListed (o : RequestOptions) : Prop :=
  (∀ s, o.allowCredentials = some s → DescriptorsListed s) ∧
    ∀ e, o.extensions = some e → ExtensionsListed e

/-! ## Setter histories -/

/-- The value of an attribute after a chain of setter calls: the one last set, or
the one it had before.  `sets s` is the value that call `s` sets it to, if any. -/
def LastSet {σ α : Type} (sets : σ → Option α) (calls : List σ) (before after : α) : Prop :=
  (∃ pre s post, calls = pre ++ s :: post ∧ sets s = some after ∧ ∀ t ∈ post, sets t = none) ∨
  (after = before ∧ ∀ t ∈ calls, sets t = none)

end WebAuthn.Spec
