import Verif.Spec.Base64

/-!
# Specification of the two ceremonies

When a registration or an authentication must be accepted, as relations over the
arguments of the call and the raw bytes of the response.
-/

namespace WebAuthn.Spec

/-! ## Keys and signatures -/

/-- The elliptic curve group named by an EC2 curve. -/
inductive NistCurve : Curve → CurveClass → Prop
  | p256 : NistCurve .P_256 .SECP256R1
  | p384 : NistCurve .P_384 .SECP384R1
  | p521 : NistCurve .P_521 .SECP521R1

/-- The hash function named by an ECDSA algorithm. -/
inductive EcdsaHash : Alg → HashAlg → Prop
  | es256 : EcdsaHash .ES256 .SHA256
  | es384 : EcdsaHash .ES384 .SHA384
  | es512 : EcdsaHash .ES512 .SHA512

/-- The credential key `k` denotes the public key object `pk`: a valid point with
the given big-endian coordinates, or a valid Edwards key with the given bytes. -/
inductive KeyOf (env : Env) : CPK → CryptoKey → Prop
  | ec2 (b : KeyBase) (x y : Bytes) (crv : NV Curve) (c : CurveClass) (nx ny : Nat) :
      NistCurve crv.id c → BigEndian x nx → BigEndian y ny → env.ecPoint c nx ny = .ok () →
      KeyOf env (.ec2 b x y crv) (.ec c nx ny)
  | ed25519 (b : KeyBase) (crv : NV Curve) (x : Bytes) :
      crv.id = .ED25519 → env.ed25519Load x = .ok () → KeyOf env (.okp b crv x) (.ed25519 x)
  | ed448 (b : KeyBase) (crv : NV Curve) (x : Bytes) :
      crv.id = .ED448 → env.ed448Load x = .ok () → KeyOf env (.okp b crv x) (.ed448 x)

/-- `sig` is a signature over `data` by the credential key `k`. -/
inductive SignedBy (env : Env) : CPK → (sig data : Bytes) → Prop
  | ecdsa (b : KeyBase) (x y : Bytes) (crv : NV Curve) (pk : CryptoKey) (alg : NV Alg)
      (h : HashAlg) (sig data : Bytes) :
      KeyOf env (.ec2 b x y crv) pk → b.alg = some alg → EcdsaHash alg.id h →
      env.ecdsaVerify pk h sig data = .ok () → SignedBy env (.ec2 b x y crv) sig data
  | eddsa (b : KeyBase) (crv : NV Curve) (x : Bytes) (pk : CryptoKey) (sig data : Bytes) :
      KeyOf env (.okp b crv x) pk → env.eddsaVerify pk sig data = .ok () →
      SignedBy env (.okp b crv x) sig data

/-! ## Client data -/

/-- The token binding of the client agrees with the one the Relying Party has. -/
inductive TokenBindingOk : Option TokenBinding → Option ClientTokenBinding → Prop
  | none : TokenBindingOk none none
  | noId (st : TokenBindingStatus) : TokenBindingOk (some ⟨st, none⟩) (some ⟨st, .none⟩)
  | withId (st : TokenBindingStatus) (id : String) :
      TokenBindingOk (some ⟨st, some id⟩) (some ⟨st, .str id⟩)

/-- The client data bytes are acceptable for a ceremony of the given type. -/
def ClientOk (env : Env) (cdj : Bytes) (type : String) (challenge : Bytes)
    (expected : ExpectedOrigin) (tb : Option TokenBinding) : Prop :=
  ∃ cd, ClientDataOf env cdj cd ∧ cd.type = type ∧ Base64UrlText cd.challenge challenge ∧
    OriginAllowed env expected cd.origin ∧ TokenBindingOk tb cd.tokenBinding

/-! ## Authenticator data -/

/-- Bit `i` of the flag byte (byte 32) is set. -/
def FlagSet (raw : Bytes) (i : Nat) : Prop := ∃ f, raw[32]? = some f ∧ f.toNat.testBit i = true

/-- The first 32 bytes are the SHA-256 of the UTF-8 encoded RP id. -/
def RpHashOk (env : Env) (raw : Bytes) (rpId : String) : Prop :=
  ∃ b, Utf8 b rpId ∧ raw.take 32 = env.sha256 b

/-- The expected extensions are there. -/
def ExtensionsOk (expected : Option (List ExtId)) (got : Option Extensions) : Prop :=
  ∀ l, expected = some l → ∀ i ∈ l, ∃ e, got = some e ∧ HasExtension e i

/-- The authenticator data bytes are acceptable, and denote `ad`. -/
def AuthOk (env : Env) (raw : Bytes) (ad : AuthData) (rpId : String) (requireUV : Bool)
    (expected : Option (List ExtId)) : Prop :=
  AuthDataOf env raw ad ∧ RpHashOk env raw rpId ∧ FlagSet raw 0 ∧
  (requireUV = true → FlagSet raw 2) ∧ ExtensionsOk expected ad.extensions

/-- The counter at bytes 33..36 exceeds the stored one, if there is one and
clones are not ignored. -/
def CounterOk (stored : Option Int) (raw : Bytes) (ignoreClone : Bool) : Prop :=
  ∀ n, stored = some n → ignoreClone = false →
    ∃ c : Nat, BigEndian ((raw.drop 33).take 4) c ∧ n < (c : Int)

/-! ## Identities -/

/-- `eff` is the effective user of an authentication. -/
inductive UserOk (registered : UserEntity) : Option UserEntity → Option Bytes → UserEntity → Prop
  | given (u : UserEntity) (handle : Option Bytes) :
      u.id = registered.id → (∀ h, handle = some h → h = registered.id) →
      UserOk registered (some u) handle u
  | fromHandle : UserOk registered none (some registered.id) registered

/-- `eff` is the effective Relying Party of an authentication. -/
inductive RpOk : (registered arg : Option RpEntity) → RpEntity → Prop
  | arg (rp : RpEntity) : RpOk none (some rp) rp
  | registered (r : RpEntity) : RpOk (some r) none r
  | both (r rp : RpEntity) : r.id = rp.id → RpOk (some r) (some rp) rp

/-- The allow list, if given, has the credential id. -/
def AllowOk (allow : Option (List Descriptor)) (rawId : Bytes) : Prop :=
  ∀ l, allow = some l → ∃ c ∈ l, c.id = rawId

/-! ## The ceremonies -/

/-- The response is a valid assertion for the stored credential `cd`. -/
def AssertionOk (env : Env) (a : AssertionArgs) (cd : CredentialData) (user : UserEntity)
    (rp : RpEntity) (ad : AuthData) : Prop :=
  ∃ cdj raw sig handle, a.credential.response = .assertion cdj raw sig handle ∧
    UserOk cd.user a.user handle user ∧ RpOk cd.rp a.rp rp ∧
    ClientOk env cdj "webauthn.get" a.expectedChallenge a.expectedOrigin a.tokenBinding ∧
    AuthOk env raw ad rp.id a.requireUserVerification a.expectedExtensions ∧
    SignedBy env cd.publicKey sig (raw ++ env.sha256 cdj) ∧
    CounterOk cd.signatureCount raw a.ignoreCloneError

/-- The response is a valid attestation, up to its attestation statement: `o` is
the attestation object and `raw` the raw authenticator data in it. -/
def AttestationOk (env : Env) (a : AttestationArgs) (o : AttestationObject) (raw : Bytes) : Prop :=
  ∃ cdj ob, a.credential.response = .attestation cdj ob ∧
    ClientOk env cdj "webauthn.create" a.expectedChallenge a.expectedOrigin a.tokenBinding ∧
    AttObjOf env ob o raw ∧
    AuthOk env raw o.authData a.rp.id a.requireUserVerification a.expectedExtensions ∧
    o.authData.attested ≠ none

end WebAuthn.Spec
