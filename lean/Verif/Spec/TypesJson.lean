import Verif.Model.TypesObj
import Verif.Spec.Options

/-!
# Specification of received data in JSON

Member by member, as in `Spec/Options.lean`.
-/

namespace WebAuthn.Spec

/-- A JSON array whose elements meet the conditions, in this order. -/
def IsListOf {α : Type} (P : α → Check) (l : List α) : Check := fun v =>
  ∃ vs, v = .list vs ∧ List.Forall₂ P l vs

/-- The form that a client sends, Web Authentication 5.1 and 5.2. -/
def ResponseJson : Response → Check
  | .attestation cdj ob =>
    Members [("clientDataJSON", some (IsBase64 cdj)), ("attestationObject", some (IsBase64 ob))]
  | .assertion cdj raw sig handle =>
    Members [("clientDataJSON", some (IsBase64 cdj)), ("authenticatorData", some (IsBase64 raw)),
      ("signature", some (IsBase64 sig)), ("userHandle", handle.map IsBase64)]

def CredentialJson (c : Credential) : Check :=
  Members [("id", some (IsText c.id)), ("type", some (IsText c.type)),
    ("rawId", some (IsBase64 c.rawId)), ("response", some (ResponseJson c.response))]

/-- Web Authentication 5.10.1. -/
def statusText : TokenBindingStatus → String
  | .SUPPORTED => "supported" | .PRESENT => "present"

def TokenBindingJson (t : TokenBinding) : Check :=
  Members [("status", some (IsText (statusText t.status))), ("id", t.id.map IsText)]

def ClientDataJson (type challenge origin : String) (tb : Option TokenBinding) : Check :=
  Members [("type", some (IsText type)), ("challenge", some (IsText challenge)),
    ("origin", some (IsText origin)), ("tokenBinding", tb.map TokenBindingJson)]

/-! ## Keys: the texts and numbers of RFC 8152, tables 4, 21 and 22 -/

def IsKty : NV KeyType → Check
  | .name .OKP => IsText "OKP" | .value .OKP => IsInt 1
  | .name .EC2 => IsText "EC2" | .value .EC2 => IsInt 2
  | .name .SYMMETRIC => IsText "Symmetric" | .value .SYMMETRIC => IsInt 4

def IsKeyOp : NV KeyOp → Check
  | .name .SIGN => IsText "sign" | .value .SIGN => IsInt 1
  | .name .VERIFY => IsText "verify" | .value .VERIFY => IsInt 2
  | .name .ENCRYPT => IsText "encrypt" | .value .ENCRYPT => IsInt 3
  | .name .DECRYPT => IsText "decrypt" | .value .DECRYPT => IsInt 4
  | .name .WRAP_KEY => IsText "wrap key" | .value .WRAP_KEY => IsInt 5
  | .name .UNWRAP_KEY => IsText "unwrap key" | .value .UNWRAP_KEY => IsInt 6
  | .name .DERIVE_KEY => IsText "derive key" | .value .DERIVE_KEY => IsInt 7
  | .name .DERIVE_BITS => IsText "derive bits" | .value .DERIVE_BITS => IsInt 8
  | .name .MAC_CREATE => IsText "MAC create" | .value .MAC_CREATE => IsInt 9
  | .name .MAC_VERIFY => IsText "MAC verify" | .value .MAC_VERIFY => IsInt 10

def IsCurve : NV Curve → Check
  | .name .P_256 => IsText "P-256" | .value .P_256 => IsInt 1
  | .name .P_384 => IsText "P-384" | .value .P_384 => IsInt 2
  | .name .P_521 => IsText "P-521" | .value .P_521 => IsInt 3
  | .name .ED25519 => IsText "Ed25519" | .value .ED25519 => IsInt 6
  | .name .ED448 => IsText "Ed448" | .value .ED448 => IsInt 7

def keyMembers (b : KeyBase) : List (String × Option Check) :=
  [("kty", some (IsKty b.kty)), ("kid", b.kid.map IsBase64), ("alg", b.alg.map IsAlg),
    ("keyOps", b.keyOps.map (IsListOf IsKeyOp)), ("baseIV", b.baseIV.map IsBase64)]

def KeyJson : CPK → Check
  | .ec2 b x y crv => Members (keyMembers b ++
      [("x", some (IsBase64 x)), ("y", some (IsBase64 y)), ("crv", some (IsCurve crv))])
  | .okp b crv x => Members (keyMembers b ++
      [("crv", some (IsCurve crv)), ("x", some (IsBase64 x))])
  | .base b => Members (keyMembers b)

/-! ## Authenticator data and attestation objects, Web Authentication 6.1, 6.4, 8 and 10 -/

def AttestedJson (a : AttestedCredentialData) : Check :=
  Members [("aaguid", some (IsBase64 a.aaguid)),
    ("credentialIdLength", some (IsInt a.credentialIdLength)),
    ("credentialId", some (IsBase64 a.credentialId)),
    ("credentialPublicKey", a.credentialPublicKey.map KeyJson)]

def CoordinatesJson (c : Coordinates) : Check :=
  Members [("latitude", c.latitude.map IsNum), ("longitude", c.longitude.map IsNum),
    ("altitude", c.altitude.map IsNum), ("accuracy", c.accuracy.map IsNum),
    ("altitudeAccuracy", c.altitudeAccuracy.map IsNum), ("heading", c.heading.map IsNum),
    ("speed", c.speed.map IsNum)]

def OutputsJson (e : Extensions) : Check :=
  Members [("appid", e.appid.map IsBool), ("txAuthSimple", e.txAuthSimple.map IsText),
    ("txAuthGeneric", e.txAuthGeneric.map IsBase64), ("authnSel", e.authnSel.map IsBool),
    ("exts", e.exts.map (IsListOf IsText)), ("uvi", e.uvi.map IsBase64),
    ("loc", e.loc.map CoordinatesJson), ("uvm", e.uvm.map (IsListOf (IsListOf IsInt))),
    ("biometricPerfBounds", e.biometricPerfBounds.map IsBool)]

def AuthDataJson (a : AuthData) : Check :=
  Members [("rpIdHash", some (IsBase64 a.rpIdHash)), ("flags", some (IsInt a.flags)),
    ("signCount", some (IsInt a.signCount)),
    ("attestedCredentialData", a.attested.map AttestedJson),
    ("extensions", a.extensions.map OutputsJson)]

def StmtJson : AttStmt → Check
  | .packed alg sig => Members [("alg", some (IsAlg alg)), ("sig", some (IsBase64 sig))]
  | .packedX509 alg sig x5c => Members [("alg", some (IsAlg alg)), ("sig", some (IsBase64 sig)),
      ("x5c", some (IsListOf IsBase64 x5c))]
  | .packedECDAA alg sig key => Members [("alg", some (IsAlg alg)), ("sig", some (IsBase64 sig)),
      ("ecdaaKeyId", some (IsBase64 key))]
  | .tpm alg sig ver info area => Members [("alg", some (IsAlg alg)), ("sig", some (IsBase64 sig)),
      ("ver", some (IsText ver)), ("certInfo", some (IsBase64 info)),
      ("pubArea", some (IsBase64 area))]
  | .tpmX509 alg sig ver info area x5c => Members [("alg", some (IsAlg alg)),
      ("sig", some (IsBase64 sig)), ("ver", some (IsText ver)), ("certInfo", some (IsBase64 info)),
      ("pubArea", some (IsBase64 area)), ("x5c", some (IsListOf IsBase64 x5c))]
  | .tpmECDAA alg sig ver info area key => Members [("alg", some (IsAlg alg)),
      ("sig", some (IsBase64 sig)), ("ver", some (IsText ver)), ("certInfo", some (IsBase64 info)),
      ("pubArea", some (IsBase64 area)), ("ecdaaKeyId", some (IsBase64 key))]
  | .androidKey alg sig x5c => Members [("alg", some (IsAlg alg)), ("sig", some (IsBase64 sig)),
      ("x5c", some (IsListOf IsBase64 x5c))]
  | .safetyNet ver response => Members [("ver", some (IsText ver)),
      ("response", some (IsBase64 response))]
  | .fidoU2F sig x5c => Members [("sig", some (IsBase64 sig)),
      ("x5c", some (IsListOf IsBase64 x5c))]
  | .none => Members []

def formatText : Fmt → String
  | .PACKED => "packed" | .TPM => "tpm" | .ANDROID_KEY => "android-key"
  | .ANDROID_SAFETYNET => "android-safetynet" | .FIDO_U2F => "fido-u2f" | .NONE => "none"

def AttestationJson (o : AttestationObject) : Check :=
  Members [("authData", some (AuthDataJson o.authData)), ("fmt", some (IsText (formatText o.fmt))),
    ("attStmt", some (StmtJson o.attStmt))]

/-- Everything that the package hands out or takes in, and that a Relying Party may
want in JSON: the classes of the module `types` with instances of their own. -/
inductive Datum where
  | rp (r : RpEntity)
  | user (u : UserEntity)
  | parameters (p : Parameters)
  | descriptor (d : FullDescriptor)
  | creation (o : CreationOptions)
  | request (o : RequestOptions)
  | credential (c : Credential)
  | response (r : Response)
  | tokenBinding (t : TokenBinding)
  | clientData (type challenge origin : String) (tb : Option TokenBinding)
  | key (k : CPK)
  | attested (a : AttestedCredentialData)
  | coordinates (c : Coordinates)
  | outputs (e : Extensions)
  | authData (a : AuthData)
  | stmt (s : AttStmt)
  | attestation (o : AttestationObject)
  | selection (s : Selection)
  | inputs (e : ExtensionInputs)
  | txAuthGeneric (t : TxAuthGenericArg)
  | perfBounds (p : PerfBounds)
  | origin (o : Origin)

def Datum.obj : Datum → Obj
  | .rp r => r.toObj | .user u => u.toObj | .parameters p => p.toObj | .descriptor d => d.toObj
  | .creation o => o.toObj | .request o => o.toObj | .credential c => c.toObj
  | .response r => r.toObj | .tokenBinding t => t.toObj
  | .clientData t c o tb => clientDataObj t c o tb
  | .key k => k.toObj | .attested a => a.toObj | .coordinates c => c.toObj | .outputs e => e.toObj
  | .authData a => a.toObj | .stmt s => s.toObj | .attestation o => o.toObj
  | .selection s => s.toObj | .inputs e => e.toObj | .txAuthGeneric t => t.toObj
  | .perfBounds p => p.toObj | .origin o => o.toObj

/-- An origin by its parts. -/
def OriginJson (o : Origin) : Check :=
  Members [("scheme", some (IsText o.scheme)), ("hostname", some (IsText o.hostname)),
    ("port", some (IsInt o.port))]

/-- What a datum is in JSON. -/
def DatumJson : Datum → Check
  | .rp r => RpJson r | .user u => UserJson u | .parameters p => ParametersJson p
  | .descriptor d => DescriptorJson d | .creation o => CreationJson o | .request o => RequestJson o
  | .credential c => CredentialJson c | .response r => ResponseJson r
  | .tokenBinding t => TokenBindingJson t
  | .clientData t c o tb => ClientDataJson t c o tb
  | .key k => KeyJson k | .attested a => AttestedJson a | .coordinates c => CoordinatesJson c
  | .outputs e => OutputsJson e | .authData a => AuthDataJson a | .stmt s => StmtJson s
  | .attestation o => AttestationJson o | .selection s => SelectionJson s
  | .inputs e => ExtensionsJson e | .txAuthGeneric t => TxAuthGenericJson t
  | .perfBounds p => PerfBoundsJson p | .origin o => OriginJson o

/-- The datum as a `jsonify` sees it that looks at the fields of a named tuple
(`data._asdict()`): an origin is an object with three attributes. -/
def Datum.fieldsObj : Datum → Obj
  | .origin o => .inst [(.str "scheme", .str o.scheme), (.str "hostname", .str o.hostname),
      (.str "port", .int o.port)]
  | x => x.obj

/-- The sequences in it are lists or tuples. -/
def Datum.Listed : Datum → Prop
  | .descriptor d => ∀ t, d.transports = some t → Spec.Listed t
  | .creation o => CreationListed o
  | .request o => RequestListed o
  | .inputs e => ExtensionsListed e
  | _ => True

end WebAuthn.Spec
