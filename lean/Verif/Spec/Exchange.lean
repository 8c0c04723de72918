import Verif.Spec.Contract

/-!
# Packages that serve honest users

`Contract` says what a package must not do.  `Serving` says what it must do so that honest users of
an application are served, whichever package is installed when they come.
-/

namespace WebAuthn.Flask

open WebAuthn WebAuthn.Spec

/-- Client data as a client writes them, on a page of an origin that is expected as it is written. -/
def WrittenOn (cdj : Bytes) (type : String) (challenge : Bytes) (expected : ExpectedOrigin) : Prop :=
  ∃ chText origin, ClientDataText type chText origin none cdj ∧ Base64UrlText chText challenge ∧
    origin ∈ originList expected

/-- The key is for an algorithm of its class and may be used for it. -/
def UsableKey (k : CPK) : Prop := ∃ alg, ClassAlg k alg ∧ Permits (baseOf k) alg

structure ServingBy (rule : CounterRule) (env : Env) (algs : List Alg) (pkg : Package) : Prop where
  /-- A registration without an attestation is accepted if the registrar takes it. -/
  registers : ∀ {σ : Type} (reg : Registrar σ) a s s' cdj ob o raw,
    ExpectedOk env a.expectedOrigin → a.tokenBinding = none →
    a.credential.response = .attestation cdj ob →
    WrittenOn cdj "webauthn.create" a.expectedChallenge a.expectedOrigin →
    AttObjOf env ob o raw → (∃ v, env.cborLoad ob = .ok (v, [])) → o.attStmt = .none →
    AuthOk env raw o.authData a.rp.id a.requireUserVerification a.expectedExtensions →
    OutputsOk o.authData → RawIdAttests a.credential o.authData → AskedFor algs o.authData →
    reg.registerAttestation ⟨a.credential, o, .NONE, a.user, a.rp, none⟩ s = (.ok none, s') →
    pkg.attestation reg a s = (.ok (), s')
  /-- A login with a usable key is accepted if the registrar takes it. -/
  logsIn : ∀ {σ : Type} (reg : Registrar σ) a s s' cd s1 user rp ad cdj raw sig handle,
    ExpectedOk env a.expectedOrigin → a.tokenBinding = none →
    AllowOk a.allowCredentials a.credential.rawId →
    reg.getCredentialData a.credential.rawId s = (.ok (some cd), s1) →
    a.credential.response = .assertion cdj raw sig handle →
    UserOk cd.user a.user handle user → RpOk cd.rp a.rp rp →
    WrittenOn cdj "webauthn.get" a.expectedChallenge a.expectedOrigin →
    AuthOk env raw ad rp.id a.requireUserVerification a.expectedExtensions →
    OutputsOk ad → ¬ AppIdUsed ad → UsableKey cd.publicKey →
    SignedBy env cd.publicKey sig (raw ++ env.sha256 cdj) →
    CounterOkBy rule cd.signatureCount raw a.ignoreCloneError →
    reg.registerAssertion ⟨a.credential, ad, user, rp⟩ s1 = (.ok none, s') →
    pkg.assertion reg a s = (.ok (), s')

/-- With the rule of the code for counters. -/
abbrev Serving := ServingBy Above

end WebAuthn.Flask
