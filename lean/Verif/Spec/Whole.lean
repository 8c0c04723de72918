import Verif.Spec.Repaired
import Verif.Spec.Extensions
import Verif.Spec.KeyUse
import Verif.Spec.Separation
import Verif.Spec.AndroidStrict
import Verif.Spec.ClientText
import Verif.Model.Whole

/-!
# Specification of the package with all repairs

What a registration and a login must be to be accepted, with all that the documentation and the
standards ask for.
-/

namespace WebAuthn.Spec

open WebAuthn.Whole (Policy)

/-- Two texts denote the same origin: scheme, host and port (RFC 6454, 4 and 5). -/
def SameOrigin (env : Env) (s s' : String) : Prop :=
  ∃ o o' host, OriginOf env s o ∧ OriginOf env s' o' ∧ o.scheme = o'.scheme ∧ o.port = o'.port ∧
    HostOf o.hostname.toList host ∧ HostOf o'.hostname.toList host

/-- The client data are acceptable, for one of the expected origins. -/
def ClientAccepted (env : Env) (cdj : Bytes) (type : String) (challenge : Bytes)
    (expected : ExpectedOrigin) (tb : Option TokenBinding) : Prop :=
  ∃ cd, StandardClientData env cdj cd ∧ cd.type = type ∧ Base64UrlText cd.challenge challenge ∧
    (∃ s ∈ originList expected, SameOrigin env cd.origin s) ∧ TokenBindingOk tb cd.tokenBinding

/-- The extension outputs are as documented. -/
def OutputsOk (ad : AuthData) : Prop := ∀ e, ad.extensions = some e → Documented e

/-- The attested key is for one of the algorithms, and has the form that WebAuthn prescribes. -/
def AskedFor (algs : List Alg) (ad : AuthData) : Prop :=
  ∃ acd k, ad.attested = some acd ∧ acd.credentialPublicKey = some k ∧
    (∃ alg ∈ algs, KeyAlg k alg) ∧ Profile k

/-- The coordinates of the attested key have 32 bytes (WebAuthn 8.6). -/
def ShortKey (ad : AuthData) : Prop :=
  ∀ acd b x y crv, ad.attested = some acd → acd.credentialPublicKey = some (.ec2 b x y crv) →
    x.length = 32 ∧ y.length = 32

/-- What a registration must be. -/
structure GoodRegistration (env : Env) (p : Policy) (a : AttestationArgs) (o : AttestationObject)
    (t : AttestationType) (path : TrustedPath) : Prop where
  expected : ExpectedOk env a.expectedOrigin
  response : ∃ cdj ob raw, a.credential.response = .attestation cdj ob ∧
    ClientAccepted env cdj "webauthn.create" a.expectedChallenge a.expectedOrigin a.tokenBinding ∧
    AttObjOf env ob o raw ∧ (∃ v, env.cborLoad ob = .ok (v, [])) ∧
    AuthOk env raw o.authData a.rp.id a.requireUserVerification a.expectedExtensions ∧
    StrictlyShows env o.authData raw (env.sha256 cdj) o.attStmt t path
  outputs : OutputsOk o.authData
  rawId : RawIdAttests a.credential o.authData
  key : AskedFor p.algs o.authData
  u2f : ∀ sig x5c, o.attStmt = .fidoU2F sig x5c → ShortKey o.authData

/-- The id whose hash the authenticator data must have. -/
inductive IdExpected (p : Policy) (rp : RpEntity) (ad : AuthData) : String → Prop
  | rp : ¬ AppIdUsed ad → IdExpected p rp ad rp.id
  | appId (id : String) : AppIdUsed ad → p.appId = some id → IdExpected p rp ad id

/-- An algorithm for keys of this class (types.py 1425-1519). -/
inductive ClassAlg : CPK → Alg → Prop
  | ec2 (b : KeyBase) (x y : Bytes) (crv : NV Curve) (alg : Alg) (h : HashAlg) : EcdsaHash alg h →
      ClassAlg (.ec2 b x y crv) alg
  | okp (b : KeyBase) (crv : NV Curve) (x : Bytes) : ClassAlg (.okp b crv x) .EDDSA

/-- What a login must be, for the stored credential `cd`. -/
structure GoodLogin (env : Env) (p : Policy) (a : AssertionArgs) (cd : CredentialData)
    (user : UserEntity) (rp : RpEntity) (ad : AuthData) : Prop where
  expected : ExpectedOk env a.expectedOrigin
  allowed : AllowOk a.allowCredentials a.credential.rawId
  party : RpOk cd.rp a.rp rp
  response : ∃ cdj raw sig handle id, a.credential.response = .assertion cdj raw sig handle ∧
    UserOk cd.user a.user handle user ∧
    ClientAccepted env cdj "webauthn.get" a.expectedChallenge a.expectedOrigin a.tokenBinding ∧
    IdExpected p rp ad id ∧
    AuthOk env raw ad id a.requireUserVerification a.expectedExtensions ∧
    SignedBy env cd.publicKey sig (raw ++ env.sha256 cdj) ∧
    CounterOk cd.signatureCount raw a.ignoreCloneError
  outputs : OutputsOk ad
  key : ∃ alg, ClassAlg cd.publicKey alg ∧ Permits (baseOf cd.publicKey) alg

/-! ## What signatures are about -/

/-- The signature is accepted by the repaired package, for the id `rpId`. -/
def AcceptedWhole (env : Env) (p : Policy) (rpId : String) : Signed → Prop
  | .login raw cdj => ∃ (σ : Type) (reg : Registrar σ) (a : AssertionArgs) (s s' : σ) (sig : Bytes)
      (handle : Option Bytes), Whole.handleAssertion env p reg a s = (.ok (), s') ∧
      a.credential.response = .assertion cdj raw sig handle ∧ RpHashOk env raw rpId
  | .androidKey raw cdj => ∃ (σ : Type) (reg : Registrar σ) (a : AttestationArgs) (s s' : σ) (ob : Bytes)
      (o : AttestationObject) (alg : NV Alg) (sig : Bytes) (x5c : List Bytes),
      Whole.handleAttestation env p reg a s = (.ok (), s') ∧
      a.credential.response = .attestation cdj ob ∧ a.rp.id = rpId ∧ AttObjOf env ob o raw ∧
      o.attStmt = .androidKey alg sig x5c
  | .u2f rpIdHash cdj id x y => ∃ (σ : Type) (reg : Registrar σ) (a : AttestationArgs) (s s' : σ)
      (ob : Bytes) (o : AttestationObject) (raw sig : Bytes) (x5c : List Bytes)
      (acd : AttestedCredentialData) (b : KeyBase) (crv : NV Curve),
      Whole.handleAttestation env p reg a s = (.ok (), s') ∧
      a.credential.response = .attestation cdj ob ∧ a.rp.id = rpId ∧ AttObjOf env ob o raw ∧
      o.attStmt = .fidoU2F sig x5c ∧ o.authData.rpIdHash = rpIdHash ∧ o.authData.attested = some acd ∧
      acd.credentialId = id ∧ acd.credentialPublicKey = some (.ec2 b x y crv)

end WebAuthn.Spec
