import Verif.Model.Options
import Verif.Model.Converters

/-!
# Received data as objects

The remaining classes of `webauthn_rp/types.py` as `jsonify` sees them: `__dict__`
holds the attributes in the order in which `__init__` assigns them, those of the
base class first.  A sequence is taken for a list; `jsonify` makes no difference
between a list and a tuple (converters.py 67-68).
-/

namespace WebAuthn

/-- A member of an inner enum of a `_NameValueEnumsContainer` (types.py 293-309). -/
def enumObj : PyVal → Obj
  | .str s => .enum (.str s)
  | .int n => .enum (.int n)
  | _ => .enum .none

/-- `Origin` (types.py 99-107) is a `NamedTuple`: it has no `__dict__`, and its type
is neither `list` nor `tuple`. -/
def Origin.toObj (_ : Origin) : Obj := .other

/-- `CredentialData` (registrars.py 16-33) is a `NamedTuple`, too. -/
def CredentialData.toObj (_ : CredentialData) : Obj := .other

/-- types.py 1046 and 1080-1082 after 1013. -/
def Response.toObj : Response → Obj
  | .attestation cdj ob =>
    .inst [(.str "client_data_JSON", .bytes cdj), (.str "attestation_object", .bytes ob)]
  | .assertion cdj raw sig handle =>
    .inst [(.str "client_data_JSON", .bytes cdj), (.str "authenticator_data", .bytes raw),
      (.str "signature", .bytes sig), (.str "user_handle", optObj .bytes handle)]

/-- types.py 1134-1135 after 1101-1102. -/
def Credential.toObj (c : Credential) : Obj :=
  .inst [(.str "id", .str c.id), (.str "type", .str c.type), (.str "raw_id", .bytes c.rawId),
    (.str "response", c.response.toObj)]

/-- `TokenBindingStatus.value` (types.py 1154-1155). -/
def TokenBindingStatus.value : TokenBindingStatus → String
  | .SUPPORTED => "supported"
  | .PRESENT => "present"

/-- types.py 1176-1177. -/
def TokenBinding.toObj (t : TokenBinding) : Obj :=
  .inst [(.str "status", .enum (.str t.status.value)), (.str "id", optObj .str t.id)]

/-- types.py 1210-1213, with a token binding whose `id` is a text, as the class
declares it. -/
def clientDataObj (type challenge origin : String) (tb : Option TokenBinding) : Obj :=
  .inst [(.str "type", .str type), (.str "challenge", .str challenge), (.str "origin", .str origin),
    (.str "token_binding", optObj TokenBinding.toObj tb)]

/-- types.py 1419-1423. -/
def KeyBase.attributes (b : KeyBase) : List (Obj × Obj) :=
  [(.str "kty", enumObj (nvValue KeyType.nameTable KeyType.valueTable b.kty)),
   (.str "kid", optObj .bytes b.kid), (.str "alg", optObj NV.algObj b.alg),
   (.str "key_ops", optObj (fun l => .list (l.map fun o =>
     enumObj (nvValue KeyOp.nameTable KeyOp.valueTable o))) b.keyOps),
   (.str "base_IV", optObj .bytes b.baseIV)]

/-- types.py 1493-1495 and 1563-1564 after 1419-1423. -/
def CPK.toObj : CPK → Obj
  | .ec2 b x y crv => .inst (b.attributes ++
      [(.str "x", .bytes x), (.str "y", .bytes y), (.str "crv", enumObj (curveValue crv))])
  | .okp b crv x => .inst (b.attributes ++
      [(.str "crv", enumObj (curveValue crv)), (.str "x", .bytes x)])
  | .base b => .inst b.attributes

/-- types.py 1612-1615. -/
def AttestedCredentialData.toObj (a : AttestedCredentialData) : Obj :=
  .inst [(.str "aaguid", .bytes a.aaguid), (.str "credential_id_length", .int a.credentialIdLength),
    (.str "credential_id", .bytes a.credentialId),
    (.str "credential_public_key", optObj CPK.toObj a.credentialPublicKey)]

/-- types.py 557-563. -/
def Coordinates.toObj (c : Coordinates) : Obj :=
  .inst [(.str "latitude", optObj Num.toObj c.latitude),
    (.str "longitude", optObj Num.toObj c.longitude),
    (.str "altitude", optObj Num.toObj c.altitude), (.str "accuracy", optObj Num.toObj c.accuracy),
    (.str "altitude_accuracy", optObj Num.toObj c.altitudeAccuracy),
    (.str "heading", optObj Num.toObj c.heading), (.str "speed", optObj Num.toObj c.speed)]

/-- types.py 760-768. -/
def Extensions.toObj (e : Extensions) : Obj :=
  .inst [(.str "appid", optObj .bool e.appid), (.str "tx_auth_simple", optObj .str e.txAuthSimple),
    (.str "tx_auth_generic", optObj .bytes e.txAuthGeneric),
    (.str "authn_sel", optObj .bool e.authnSel),
    (.str "exts", optObj (fun l => .list (l.map .str)) e.exts),
    (.str "uvi", optObj .bytes e.uvi), (.str "loc", optObj Coordinates.toObj e.loc),
    (.str "uvm", optObj (fun l => .list (l.map fun u => .list (u.map .int))) e.uvm),
    (.str "biometric_perf_bounds", optObj .bool e.biometricPerfBounds)]

/-- types.py 1653-1657. -/
def AuthData.toObj (a : AuthData) : Obj :=
  .inst [(.str "rp_id_hash", .bytes a.rpIdHash), (.str "flags", .int a.flags),
    (.str "sign_count", .int a.signCount),
    (.str "attested_credential_data", optObj AttestedCredentialData.toObj a.attested),
    (.str "extensions", optObj Extensions.toObj a.extensions)]

/-- types.py 1847, 1871, 1900-1902, 1939, 1975, 2000, 2022-2023, 2045 after
1801-1802. -/
def AttStmt.toObj : AttStmt → Obj
  | .packed alg sig => .inst [(.str "alg", alg.algObj), (.str "sig", .bytes sig)]
  | .packedX509 alg sig x5c =>
    .inst [(.str "alg", alg.algObj), (.str "sig", .bytes sig), (.str "x5c", .list (x5c.map .bytes))]
  | .packedECDAA alg sig key =>
    .inst [(.str "alg", alg.algObj), (.str "sig", .bytes sig), (.str "ecdaa_key_id", .bytes key)]
  | .tpm alg sig ver info area =>
    .inst [(.str "alg", alg.algObj), (.str "sig", .bytes sig), (.str "ver", .str ver),
      (.str "cert_info", .bytes info), (.str "pub_area", .bytes area)]
  | .tpmX509 alg sig ver info area x5c =>
    .inst [(.str "alg", alg.algObj), (.str "sig", .bytes sig), (.str "ver", .str ver),
      (.str "cert_info", .bytes info), (.str "pub_area", .bytes area),
      (.str "x5c", .list (x5c.map .bytes))]
  | .tpmECDAA alg sig ver info area key =>
    .inst [(.str "alg", alg.algObj), (.str "sig", .bytes sig), (.str "ver", .str ver),
      (.str "cert_info", .bytes info), (.str "pub_area", .bytes area),
      (.str "ecdaa_key_id", .bytes key)]
  | .androidKey alg sig x5c =>
    .inst [(.str "alg", alg.algObj), (.str "sig", .bytes sig), (.str "x5c", .list (x5c.map .bytes))]
  | .safetyNet ver response =>
    .inst [(.str "alg", .none), (.str "sig", .none), (.str "ver", .str ver),
      (.str "response", .bytes response)]
  | .fidoU2F sig x5c =>
    .inst [(.str "alg", .none), (.str "sig", .bytes sig), (.str "x5c", .list (x5c.map .bytes))]
  | .none => .inst [(.str "alg", .none), (.str "sig", .none)]

/-- `AttestationStatementFormatIdentifier.value` (types.py 1707-1712). -/
def Fmt.value : Fmt → String
  | .PACKED => "packed"
  | .TPM => "tpm"
  | .ANDROID_KEY => "android-key"
  | .ANDROID_SAFETYNET => "android-safetynet"
  | .FIDO_U2F => "fido-u2f"
  | .NONE => "none"

/-- types.py 2085-2087. -/
def AttestationObject.toObj (o : AttestationObject) : Obj :=
  .inst [(.str "auth_data", o.authData.toObj), (.str "fmt", .enum (.str o.fmt.value)),
    (.str "att_stmt", o.attStmt.toObj)]

end WebAuthn
