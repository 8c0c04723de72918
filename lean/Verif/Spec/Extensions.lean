import Verif.Spec.Ceremony
import Verif.Spec.Registrar

/-!
# What extension outputs are documented to be (types.py 504-547, 716-747)
-/

namespace WebAuthn.Spec

def FiniteFloat (f : PyFloat) : Prop := f.bits.toNat / 2 ^ 52 % 2 ^ 11 ≠ 2047

/-- A number that is real, in units of `2 ^ -1074`. -/
inductive Value : Num → Int → Prop
  | int (n : Int) : Value (.int n) (n * 2 ^ 1074)
  | float (f : PyFloat) : FiniteFloat f → Value (.float f) (scaled f)

def RealNumber (x : Num) : Prop := ∃ v, Value x v

def NotNegative (x : Num) : Prop := ∃ v, Value x v ∧ 0 ≤ v

/-- `0 ≤ x < 360`. -/
def Direction (x : Num) : Prop := ∃ v, Value x v ∧ 0 ≤ v ∧ v < 360 * 2 ^ 1074

/-- NaN (IEEE 754, binary64). -/
def NotANumber : Num → Prop
  | .int _ => False
  | .float f => ¬ FiniteFloat f ∧ f.bits.toNat % 2 ^ 52 ≠ 0

/-- "the hosting device is stationary (i.e. the value of the speed attribute is 0)". -/
def Stationary (c : Coordinates) : Prop := ∃ s, c.speed = some s ∧ Value s 0

/-- What `Coordinates` says of its attributes (types.py 510-542). -/
structure Position (c : Coordinates) : Prop where
  latitude : ∃ x, c.latitude = some x ∧ RealNumber x
  longitude : ∃ x, c.longitude = some x ∧ RealNumber x
  altitude : ∀ x, c.altitude = some x → RealNumber x
  accuracy : ∃ x, c.accuracy = some x ∧ NotNegative x
  altitudeAccuracy : ∀ x, c.altitudeAccuracy = some x → NotNegative x ∧ c.altitude ≠ none
  speed : ∀ x, c.speed = some x → NotNegative x
  heading : ∀ x, c.heading = some x →
    Stationary c ∧ NotANumber x ∨ ¬ Stationary c ∧ Direction x

/-- What `AuthenticationExtensionsClientOutputs` says of its attributes (types.py 721-744),
as far as it concerns single values. -/
structure Documented (e : Extensions) : Prop where
  authnSel : e.authnSel ≠ some false
  loc : ∀ c, e.loc = some c → Position c
  uvm : ∀ l, e.uvm = some l → ∀ entry ∈ l, entry.length = 3
  biometricPerfBounds : e.biometricPerfBounds ≠ some false

/-- C79: outputs that `parse_extensions` accepts are as documented. -/
def ParsedAsDocumented (parse : Dict → Py Extensions) : Prop :=
  ∀ d e, parse d = .ok e → Documented e

/-- C79 for a ceremony: a Relying Party that expects the location of the authenticator gets
it when a user logs in. -/
def LocationDelivered (handle : ∀ σ : Type, Registrar σ → AssertionArgs → σ → Py Unit × σ) : Prop :=
  ∀ (σ : Type) (reg : Registrar σ) (a : AssertionArgs) (s s' : σ) (log : List Call) (l : List ExtId),
    a.expectedExtensions = some l → .LOC ∈ l →
    handle _ (recording reg) a (s, []) = (.ok (), s', log) →
    ∀ r, .assertion r ∈ log →
      ∃ e c x y, r.authData.extensions = some e ∧ e.loc = some c ∧
        c.latitude = some x ∧ c.longitude = some y

/-! ## The extension map in the bytes -/

/-- The names of extensions in the map (types.py 639-647; WebAuthn Level 1, section 10). -/
def extensionName : ExtId → String
  | .APPID => "appid"
  | .TX_AUTH_SIMPLE => "txAuthSimple"
  | .TX_AUTH_GENERIC => "txAuthGeneric"
  | .AUTHN_SEL => "authnSel"
  | .EXTS => "exts"
  | .UVI => "uvi"
  | .LOC => "loc"
  | .UVM => "uvm"
  | .BIOMETRIC_PERF_BOUNDS => "biometricPerfBounds"

/-- The authenticator data have bit 7 of byte 32 set and end with the CBOR map `d`, after 37 bytes
and, if bit 6 is set, attested credential data. -/
def ExtensionMap (env : Env) (raw : Bytes) (d : Dict) : Prop :=
  ∃ head body mid flags a, raw = head ++ body ∧ head.length = 37 ∧ head[32]? = some flags ∧
    Block flags 6 (AttestedOf env) body mid a ∧ flags.toNat.testBit 7 = true ∧
    env.cborLoad mid = .ok (.dict d, [])

/-- The map has a value other than null for the extension. -/
def InMap (d : Dict) (i : ExtId) : Prop :=
  ∃ v, Lookup d (.str (extensionName i)) v ∧ v ≠ .none

/-! ## The AppID extension -/

/-- `handle_credential_assertion` of a Relying Party that has the given AppID. -/
abbrev AppIdHandler := String → ∀ σ : Type, Registrar σ → AssertionArgs → σ → Py Unit × σ

/-- The outputs say that the AppID was used. -/
def AppIdUsed (ad : AuthData) : Prop := ∃ e, ad.extensions = some e ∧ e.appid = some true

/-- C80: "If true, the AppID was used and thus, when verifying an assertion, the Relying Party MUST
expect the rpIdHash to be the hash of the AppID, not the RP ID" (types.py 722-724). -/
def AppIdExpected (env : Env) (handle : AppIdHandler) : Prop :=
  ∀ (appId : String) (σ : Type) (reg : Registrar σ) (a : AssertionArgs) (s s' : σ)
    (log : List Call), handle appId _ (recording reg) a (s, []) = (.ok (), s', log) →
    ∀ r, .assertion r ∈ log → AppIdUsed r.authData →
      ∃ b, Utf8 b appId ∧ r.authData.rpIdHash = env.sha256 b

/-- The response is a valid assertion for the stored credential `cd`, made for the AppID. -/
def AppIdAssertion (env : Env) (a : AssertionArgs) (cd : CredentialData) (user : UserEntity)
    (appId : String) (ad : AuthData) : Prop :=
  ∃ cdj raw sig handle, a.credential.response = .assertion cdj raw sig handle ∧
    UserOk cd.user a.user handle user ∧
    ClientOk env cdj "webauthn.get" a.expectedChallenge a.expectedOrigin a.tokenBinding ∧
    AuthOk env raw ad appId a.requireUserVerification a.expectedExtensions ∧ AppIdUsed ad ∧
    SignedBy env cd.publicKey sig (raw ++ env.sha256 cdj) ∧
    CounterOk cd.signatureCount raw a.ignoreCloneError

/-- C80: such a response is accepted, if the registrar takes it.  The registrar is one that does
not store Relying Parties. -/
def AppIdAccepted (env : Env) (handle : AppIdHandler) : Prop :=
  ∀ (appId : String) (σ : Type) (reg : Registrar σ) (a : AssertionArgs) (s s1 : σ)
    (cd : CredentialData) (user : UserEntity) (rp : RpEntity) (ad : AuthData),
    ExpectedOk env a.expectedOrigin → AllowOk a.allowCredentials a.credential.rawId →
    a.rp = some rp → reg.getCredentialData a.credential.rawId s = (.ok (some cd), s1) →
    cd.rp = none → AppIdAssertion env a cd user appId ad →
    (∀ r, r.credential = a.credential → ∃ s', reg.registerAssertion r s1 = (.ok none, s')) →
    ∃ s', handle appId _ reg a s = (.ok (), s')

end WebAuthn.Spec
