import Verif.Model.Py

/-!
# Data types

`webauthn_rp/types.py`, `webauthn_rp/registrars.py` (16-33) and the enumerations
used by the parsers.  Classes that only store their constructor arguments become
structures with the same fields.
-/

namespace WebAuthn

/-! ## Enumerations -/

/-- A member of a `_NameValueEnumsContainer` (types.py 293-309): either of the
inner `Name` enum or of the inner `Value` enum.  Both inner enums have the same
member names, given by `α`. -/
inductive NV (α : Type) where
  | name (a : α)
  | value (a : α)
  deriving DecidableEq, Repr

/-- `member.name`. -/
def NV.id {α : Type} : NV α → α
  | .name a => a
  | .value a => a

/-- `COSEAlgorithmIdentifier` (types.py 312-339), member names. -/
inductive Alg where
  | ES256 | ES384 | ES512 | EDDSA
  deriving DecidableEq, Repr

/-- `COSEKeyType` (types.py 1240-1265), member names. -/
inductive KeyType where
  | OKP | EC2 | SYMMETRIC
  deriving DecidableEq, Repr

/-- `COSEKeyOperation` (types.py 1268-1317), member names. -/
inductive KeyOp where
  | SIGN | VERIFY | ENCRYPT | DECRYPT | WRAP_KEY | UNWRAP_KEY | DERIVE_KEY
  | DERIVE_BITS | MAC_CREATE | MAC_VERIFY
  deriving DecidableEq, Repr

/-- `EC2Curve` (types.py 1320-1342) and `OKPCurve` (types.py 1345-1364), member
names.  One type, because a caller can construct a key object of either class
with a curve of the other. -/
inductive Curve where
  | P_256 | P_384 | P_521 | ED25519 | ED448
  deriving DecidableEq, Repr

/-- Values of `COSEAlgorithmIdentifier.Name` (types.py 327-332). -/
def Alg.nameTable : List (String × Alg) :=
  [("ES256", .ES256), ("ES384", .ES384), ("ES512", .ES512), ("EdDSA", .EDDSA)]

/-- Values of `COSEAlgorithmIdentifier.Value` (types.py 334-339). -/
def Alg.valueTable : List (Int × Alg) :=
  [(-7, .ES256), (-35, .ES384), (-36, .ES512), (-8, .EDDSA)]

/-- Values of `COSEKeyType.Name` (types.py 1257-1260). -/
def KeyType.nameTable : List (String × KeyType) :=
  [("OKP", .OKP), ("EC2", .EC2), ("Symmetric", .SYMMETRIC)]

/-- Values of `COSEKeyType.Value` (types.py 1262-1265). -/
def KeyType.valueTable : List (Int × KeyType) :=
  [(1, .OKP), (2, .EC2), (4, .SYMMETRIC)]

/-- Values of `COSEKeyOperation.Name` (types.py 1295-1305). -/
def KeyOp.nameTable : List (String × KeyOp) :=
  [("sign", .SIGN), ("verify", .VERIFY), ("encrypt", .ENCRYPT), ("decrypt", .DECRYPT),
   ("wrap key", .WRAP_KEY), ("unwrap key", .UNWRAP_KEY), ("derive key", .DERIVE_KEY),
   ("derive bits", .DERIVE_BITS), ("MAC create", .MAC_CREATE), ("MAC verify", .MAC_VERIFY)]

/-- Values of `COSEKeyOperation.Value` (types.py 1307-1317). -/
def KeyOp.valueTable : List (Int × KeyOp) :=
  [(1, .SIGN), (2, .VERIFY), (3, .ENCRYPT), (4, .DECRYPT), (5, .WRAP_KEY), (6, .UNWRAP_KEY),
   (7, .DERIVE_KEY), (8, .DERIVE_BITS), (9, .MAC_CREATE), (10, .MAC_VERIFY)]

/-- Values of `EC2Curve.Name` (types.py 1334-1337). -/
def Curve.ec2NameTable : List (String × Curve) :=
  [("P-256", .P_256), ("P-384", .P_384), ("P-521", .P_521)]

/-- Values of `EC2Curve.Value` (types.py 1339-1342). -/
def Curve.ec2ValueTable : List (Int × Curve) := [(1, .P_256), (2, .P_384), (3, .P_521)]

/-- Values of `OKPCurve.Name` (types.py 1358-1360). -/
def Curve.okpNameTable : List (String × Curve) := [("Ed25519", .ED25519), ("Ed448", .ED448)]

/-- Values of `OKPCurve.Value` (types.py 1362-1364). -/
def Curve.okpValueTable : List (Int × Curve) := [(6, .ED25519), (7, .ED448)]

/-- `_NameValueEnumsContainer.__call__` (types.py 301-309) on a value of type
exactly `int` or `str`: lookup by value in the inner enum, `ValueError` if there
is no such member. -/
def nvCallKey {α : Type} (names : List (String × α)) (values : List (Int × α)) :
    Key → Py (NV α)
  | .int n => match values.lookup n with
    | some a => .ok (.value a)
    | none => .error .valueError
  | .str s => match names.lookup s with
    | some a => .ok (.name a)
    | none => .error .valueError

/-- `_NameValueEnumsContainer.__call__` (types.py 301-309) on any value:
`KeyError` when the type is neither `int` nor `str`. -/
def nvCall {α : Type} (names : List (String × α)) (values : List (Int × α))
    (v : PyVal) : Py (NV α) :=
  match v.asKey? with
  | some k => nvCallKey names values k
  | none => .error .keyError

/-- `member.value` of an inner enum member: the string or integer it stands for. -/
def nvValue {α : Type} [BEq α] (names : List (String × α)) (values : List (Int × α)) :
    NV α → PyVal
  | .name a => match names.find? (fun p => p.2 == a) with
    | some p => .str p.1
    | none => .none
  | .value a => match values.find? (fun p => p.2 == a) with
    | some p => .int p.1
    | none => .none

/-- `TokenBindingStatus` (types.py 1138-1155). -/
inductive TokenBindingStatus where
  | SUPPORTED | PRESENT
  deriving DecidableEq, Repr

/-- `TokenBindingStatus(x)`: `ValueError` unless `x` is one of the two strings. -/
def TokenBindingStatus.call : PyVal → Py TokenBindingStatus
  | .str s =>
    if s = "supported" then .ok .SUPPORTED
    else if s = "present" then .ok .PRESENT
    else .error .valueError
  | _ => .error .valueError

/-- `AttestationStatementFormatIdentifier` (types.py 1660-1712). -/
inductive Fmt where
  | PACKED | TPM | ANDROID_KEY | ANDROID_SAFETYNET | FIDO_U2F | NONE
  deriving DecidableEq, Repr

/-- `AttestationStatementFormatIdentifier(fmt)` (types.py 1707-1712). -/
def Fmt.call (s : String) : Py Fmt :=
  if s = "packed" then .ok .PACKED
  else if s = "tpm" then .ok .TPM
  else if s = "android-key" then .ok .ANDROID_KEY
  else if s = "android-safetynet" then .ok .ANDROID_SAFETYNET
  else if s = "fido-u2f" then .ok .FIDO_U2F
  else if s = "none" then .ok .NONE
  else .error .valueError

/-- `AttestationType` (types.py 1715-1762). -/
inductive AttestationType where
  | BASIC | ATTCA | ECDAA | SELF | NONE | UNCERTAIN
  deriving DecidableEq, Repr

/-- `ExtensionIdentifier` (types.py 591-651). -/
inductive ExtId where
  | APPID | TX_AUTH_SIMPLE | TX_AUTH_GENERIC | AUTHN_SEL | EXTS | UVI | LOC | UVM
  | BIOMETRIC_PERF_BOUNDS
  deriving DecidableEq, Repr

/-- `ExtensionIdentifier.value` (types.py 639-647). -/
def ExtId.value : ExtId → String
  | .APPID => "appid"
  | .TX_AUTH_SIMPLE => "txAuthSimple"
  | .TX_AUTH_GENERIC => "txAuthGeneric"
  | .AUTHN_SEL => "authnSel"
  | .EXTS => "exts"
  | .UVI => "uvi"
  | .LOC => "loc"
  | .UVM => "uvm"
  | .BIOMETRIC_PERF_BOUNDS => "biometricPerfBounds"

/-- `AuthenticatorDataFlag` values (types.py 1232-1237). -/
def flagUP : Nat := 1 <<< 0
def flagUV : Nat := 1 <<< 2
def flagAT : Nat := 1 <<< 6
def flagED : Nat := 1 <<< 7

/-! ## Records -/

/-- `Origin` (types.py 95-107). -/
structure Origin where
  scheme : String
  hostname : String
  port : Nat
  deriving DecidableEq, Repr

/-- `PublicKeyCredentialRpEntity` (types.py 110-183). -/
structure RpEntity where
  name : String
  icon : Option String := none
  id : String
  deriving DecidableEq, Repr

/-- `PublicKeyCredentialUserEntity` (types.py 110-140, 186-240). -/
structure UserEntity where
  name : String
  icon : Option String := none
  id : Bytes
  displayName : String
  deriving DecidableEq, Repr

/-- `PublicKeyCredentialDescriptor` (types.py 366-398); only the `id` is read by
the backend.  (`jsonify` of descriptors is modelled in `Model/Options.lean`.) -/
structure Descriptor where
  id : Bytes
  deriving DecidableEq, Repr

/-- `TokenBinding` (types.py 1158-1177) as passed by the Relying Party. -/
structure TokenBinding where
  status : TokenBindingStatus
  id : Option String
  deriving DecidableEq, Repr

/-- `TokenBinding` as built by `parse_client_data`: the `id` is whatever JSON
value the client sent (parsers.py 760-761). -/
structure ClientTokenBinding where
  status : TokenBindingStatus
  id : PyVal

/-- `CollectedClientData` (types.py 1180-1213). -/
structure ClientData where
  type : String
  challenge : String
  origin : String
  tokenBinding : Option ClientTokenBinding

/-- `AuthenticatorAttestationResponse` / `AuthenticatorAssertionResponse`
(types.py 999-1082). -/
inductive Response where
  | attestation (clientDataJSON attestationObject : Bytes)
  | assertion (clientDataJSON authenticatorData signature : Bytes)
      (userHandle : Option Bytes)
  deriving DecidableEq, Repr

/-- `PublicKeyCredential` (types.py 1085-1135). -/
structure Credential where
  id : String
  type : String
  rawId : Bytes
  response : Response
  deriving DecidableEq, Repr

/-- The attributes of `CredentialPublicKey` (types.py 1367-1423). -/
structure KeyBase where
  kty : NV KeyType
  kid : Option Bytes := none
  alg : Option (NV Alg) := none
  keyOps : Option (List (NV KeyOp)) := none
  baseIV : Option Bytes := none
  deriving DecidableEq, Repr

/-- `CredentialPublicKey` and its subclasses `EC2CredentialPublicKey`
(types.py 1426-1495) and `OKPCredentialPublicKey` (types.py 1498-1564).
`base` is an instance of the base class or of a caller-defined subclass. -/
inductive CPK where
  | ec2 (b : KeyBase) (x y : Bytes) (crv : NV Curve)
  | okp (b : KeyBase) (crv : NV Curve) (x : Bytes)
  | base (b : KeyBase)
  deriving DecidableEq, Repr

/-- A number accepted in the `loc` extension: `type(x) in (int, float)`. -/
inductive Num where
  | int (n : Int)
  | float (f : PyFloat)
  deriving DecidableEq, Repr

/-- `Coordinates` (types.py 504-563), as filled by `parse_extensions`. -/
structure Coordinates where
  latitude : Option Num
  longitude : Option Num
  altitude : Option Num
  accuracy : Option Num
  altitudeAccuracy : Option Num
  heading : Option Num
  speed : Option Num
  deriving DecidableEq, Repr

/-- `AuthenticationExtensionsClientOutputs` (types.py 716-768).  `exts` is kept
as a list whether it came as a list or a tuple. -/
structure Extensions where
  appid : Option Bool := none
  txAuthSimple : Option String := none
  txAuthGeneric : Option Bytes := none
  authnSel : Option Bool := none
  exts : Option (List String) := none
  uvi : Option Bytes := none
  loc : Option Coordinates := none
  uvm : Option (List (List Int)) := none
  biometricPerfBounds : Option Bool := none
  deriving DecidableEq, Repr

/-- `AttestedCredentialData` (types.py 1567-1615). -/
structure AttestedCredentialData where
  aaguid : Bytes
  credentialIdLength : Nat
  credentialId : Bytes
  credentialPublicKey : Option CPK
  deriving DecidableEq, Repr

/-- `AuthenticatorData` (types.py 1618-1657). -/
structure AuthData where
  rpIdHash : Bytes
  flags : Nat
  signCount : Nat
  attested : Option AttestedCredentialData
  extensions : Option Extensions
  deriving DecidableEq, Repr

/-- The attestation statement classes (types.py 1765-2055). -/
inductive AttStmt where
  | packed (alg : NV Alg) (sig : Bytes)
  | packedX509 (alg : NV Alg) (sig : Bytes) (x5c : List Bytes)
  | packedECDAA (alg : NV Alg) (sig : Bytes) (ecdaaKeyId : Bytes)
  | tpm (alg : NV Alg) (sig : Bytes) (ver : String) (certInfo pubArea : Bytes)
  | tpmX509 (alg : NV Alg) (sig : Bytes) (ver : String) (certInfo pubArea : Bytes)
      (x5c : List Bytes)
  | tpmECDAA (alg : NV Alg) (sig : Bytes) (ver : String) (certInfo pubArea : Bytes)
      (ecdaaKeyId : Bytes)
  | androidKey (alg : NV Alg) (sig : Bytes) (x5c : List Bytes)
  | safetyNet (ver : String) (response : Bytes)
  | fidoU2F (sig : Bytes) (x5c : List Bytes)
  | none
  deriving DecidableEq, Repr

/-- `AttestationObject` (types.py 2058-2087). -/
structure AttestationObject where
  authData : AuthData
  fmt : Fmt
  attStmt : AttStmt
  deriving DecidableEq, Repr

/-- `CredentialData` (registrars.py 16-33). -/
structure CredentialData where
  publicKey : CPK
  signatureCount : Option Int
  user : UserEntity
  rp : Option RpEntity := none
  deriving DecidableEq, Repr

end WebAuthn
