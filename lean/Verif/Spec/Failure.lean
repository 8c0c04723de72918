import Verif.Spec.Ceremony

/-!
# Which error a failing ceremony must report

One constructor per documented error: the checks before it pass and this one
does not.
-/

namespace WebAuthn.Spec

/-- The client data are well formed but not acceptable. -/
inductive ClientFails (env : Env) (cdj : Bytes) (type : String) (challenge : Bytes)
    (expected : ExpectedOrigin) (tb : Option TokenBinding) : LibErr → Prop
  | type (cd : ClientData) : ClientDataOf env cdj cd → cd.type ≠ type →
      ClientFails env cdj type challenge expected tb .clientDataType
  | decoding (cd : ClientData) : ClientDataOf env cdj cd → cd.type = type →
      (∀ c, ¬ Base64UrlText cd.challenge c) →
      ClientFails env cdj type challenge expected tb .decoding
  | challenge (cd : ClientData) (c : Bytes) : ClientDataOf env cdj cd → cd.type = type →
      Base64UrlText cd.challenge c → c ≠ challenge →
      ClientFails env cdj type challenge expected tb .challenge
  | origin (cd : ClientData) (o : Origin) : ClientDataOf env cdj cd → cd.type = type →
      Base64UrlText cd.challenge challenge → OriginOf env cd.origin o →
      ¬ OriginAllowed env expected cd.origin →
      ClientFails env cdj type challenge expected tb .origin
  | tokenBinding (cd : ClientData) : ClientDataOf env cdj cd → cd.type = type →
      Base64UrlText cd.challenge challenge → OriginAllowed env expected cd.origin →
      ¬ TokenBindingOk tb cd.tokenBinding →
      ClientFails env cdj type challenge expected tb .tokenBinding

/-- The authenticator data are well formed but not acceptable. -/
inductive AuthFails (env : Env) (raw : Bytes) (ad : AuthData) (rpId : String) (requireUV : Bool)
    (expected : Option (List ExtId)) : LibErr → Prop
  | rpIdHash : AuthDataOf env raw ad → ¬ RpHashOk env raw rpId →
      AuthFails env raw ad rpId requireUV expected .rpIdHash
  | userPresence : AuthDataOf env raw ad → RpHashOk env raw rpId → ¬ FlagSet raw 0 →
      AuthFails env raw ad rpId requireUV expected .userPresence
  | userVerification : AuthDataOf env raw ad → RpHashOk env raw rpId → FlagSet raw 0 →
      requireUV = true → ¬ FlagSet raw 2 →
      AuthFails env raw ad rpId requireUV expected .userVerification
  | extension : AuthDataOf env raw ad → RpHashOk env raw rpId → FlagSet raw 0 →
      (requireUV = true → FlagSet raw 2) → ¬ ExtensionsOk expected ad.extensions →
      AuthFails env raw ad rpId requireUV expected .extension

/-- The response does not belong to the user. -/
inductive UserFails (registered : UserEntity) : Option UserEntity → Option Bytes → LibErr → Prop
  | otherUser (u : UserEntity) (handle : Option Bytes) : u.id ≠ registered.id →
      UserFails registered (some u) handle .userId
  | noHandle : UserFails registered none none .userHandle
  | otherHandle (u : Option UserEntity) (h : Bytes) :
      (∀ v, u = some v → v.id = registered.id) → h ≠ registered.id →
      UserFails registered u (some h) .userHandle

/-- There is no Relying Party, or the wrong one. -/
inductive RpFails : (registered arg : Option RpEntity) → LibErr → Prop
  | notFound : RpFails none none .rpNotFound
  | other (r rp : RpEntity) : r.id ≠ rp.id → RpFails (some r) (some rp) .rpId

/-- The cryptographic library refuses the signature. -/
inductive BadSignature (env : Env) : CPK → (sig data : Bytes) → Prop
  | ecdsa (b : KeyBase) (x y : Bytes) (crv : NV Curve) (pk : CryptoKey) (alg : NV Alg)
      (h : HashAlg) (sig data : Bytes) :
      KeyOf env (.ec2 b x y crv) pk → b.alg = some alg → EcdsaHash alg.id h →
      env.ecdsaVerify pk h sig data = .error .invalidSignature →
      BadSignature env (.ec2 b x y crv) sig data
  | eddsa (b : KeyBase) (crv : NV Curve) (x : Bytes) (pk : CryptoKey) (sig data : Bytes) :
      KeyOf env (.okp b crv x) pk → env.eddsaVerify pk sig data = .error .invalidSignature →
      BadSignature env (.okp b crv x) sig data

/-- The error of an authentication with a stored credential `cd`. -/
inductive AssertionFails (env : Env) (a : AssertionArgs) (cd : CredentialData)
    (cdj raw sig : Bytes) (handle : Option Bytes) : LibErr → Prop
  | user (e : LibErr) : UserFails cd.user a.user handle e →
      AssertionFails env a cd cdj raw sig handle e
  | rp (u : UserEntity) (e : LibErr) : UserOk cd.user a.user handle u → RpFails cd.rp a.rp e →
      AssertionFails env a cd cdj raw sig handle e
  | client (u : UserEntity) (rp : RpEntity) (e : LibErr) : UserOk cd.user a.user handle u →
      RpOk cd.rp a.rp rp →
      ClientFails env cdj "webauthn.get" a.expectedChallenge a.expectedOrigin a.tokenBinding e →
      AssertionFails env a cd cdj raw sig handle e
  | auth (u : UserEntity) (rp : RpEntity) (ad : AuthData) (e : LibErr) :
      UserOk cd.user a.user handle u → RpOk cd.rp a.rp rp →
      ClientOk env cdj "webauthn.get" a.expectedChallenge a.expectedOrigin a.tokenBinding →
      AuthFails env raw ad rp.id a.requireUserVerification a.expectedExtensions e →
      AssertionFails env a cd cdj raw sig handle e
  | verification (u : UserEntity) (rp : RpEntity) (ad : AuthData) :
      UserOk cd.user a.user handle u → RpOk cd.rp a.rp rp →
      ClientOk env cdj "webauthn.get" a.expectedChallenge a.expectedOrigin a.tokenBinding →
      AuthOk env raw ad rp.id a.requireUserVerification a.expectedExtensions →
      BadSignature env cd.publicKey sig (raw ++ env.sha256 cdj) →
      AssertionFails env a cd cdj raw sig handle .verification
  | signatureCount (u : UserEntity) (rp : RpEntity) (ad : AuthData) :
      UserOk cd.user a.user handle u → RpOk cd.rp a.rp rp →
      ClientOk env cdj "webauthn.get" a.expectedChallenge a.expectedOrigin a.tokenBinding →
      AuthOk env raw ad rp.id a.requireUserVerification a.expectedExtensions →
      SignedBy env cd.publicKey sig (raw ++ env.sha256 cdj) →
      ¬ CounterOk cd.signatureCount raw a.ignoreCloneError →
      AssertionFails env a cd cdj raw sig handle .signatureCount

/-- The error of a registration, up to its attestation statement. -/
inductive AttestationFails (env : Env) (a : AttestationArgs) (cdj ob : Bytes) : LibErr → Prop
  | client (e : LibErr) :
      ClientFails env cdj "webauthn.create" a.expectedChallenge a.expectedOrigin a.tokenBinding e →
      AttestationFails env a cdj ob e
  | auth (o : AttestationObject) (raw : Bytes) (e : LibErr) :
      ClientOk env cdj "webauthn.create" a.expectedChallenge a.expectedOrigin a.tokenBinding →
      AttObjOf env ob o raw →
      AuthFails env raw o.authData a.rp.id a.requireUserVerification a.expectedExtensions e →
      AttestationFails env a cdj ob e
  | unimplemented (o : AttestationObject) (raw : Bytes) : AttestationOk env a o raw →
      o.attStmt ≠ .none → (∀ s c, o.attStmt ≠ .fidoU2F s c) →
      (∀ g s c, o.attStmt ≠ .androidKey g s c) →
      AttestationFails env a cdj ob .unimplemented

end WebAuthn.Spec
