import Verif.Spec.Contract

/-!
# The contract, part by part (C99)

`Keeps req` asks of the handlers those parts of `Contract` (Verif/Spec/Contract.lean) that `req`
has.  With all of them it is `Contract`.
-/

namespace WebAuthn.Flask

open WebAuthn WebAuthn.Spec

inductive Part where
  /-- The response to a registration is the one that was sent. -/
  | attestation
  /-- Its client data are client data, … -/
  | createData
  /-- … of the type `webauthn.create`, … -/
  | createType
  /-- … with the challenge, … -/
  | createChallenge
  /-- … made on a page of an expected origin. -/
  | createOrigin
  /-- What is registered is in the attestation object. -/
  | object
  /-- Who is registered was taken by the registrar. -/
  | stored
  /-- Who is not registered was not. -/
  | notStored
  /-- The credential data are those of the registrar. -/
  | known
  /-- The response to a login is the one that was sent. -/
  | assertion
  /-- The user is that of the credential. -/
  | user
  /-- The Relying Party is the one that was asked for. -/
  | rp
  /-- The client data are client data, … -/
  | getData
  /-- … of the type `webauthn.get`, … -/
  | getType
  /-- … with the challenge, … -/
  | getChallenge
  /-- … made on a page of an expected origin. -/
  | getOrigin
  /-- What the registrar gets are the authenticator data. -/
  | authData
  /-- They are for the Relying Party. -/
  | rpHash
  /-- They say that a user was present. -/
  | present
  /-- The key of the credential signed them and the client data. -/
  | signed
  /-- The counter follows the stored one. -/
  | counter
  /-- Who logs in was taken by the registrar. -/
  | updated
  /-- Who does not was not. -/
  | notUpdated
  deriving DecidableEq

/-- What has to be true of a registration that leads from `s` to `s'`. -/
def RegistersAs (req : Part → Prop) (env : Env) {σ : Type} (reg : Registrar σ) (a : AttestationArgs)
    (s s' : σ) : Prop :=
  ∃ cdj ob o raw t path cd,
    (req .attestation → a.credential.response = .attestation cdj ob) ∧
    (req .createData → StandardClientData env cdj cd) ∧
    (req .createType → cd.type = "webauthn.create") ∧
    (req .createChallenge → Base64UrlText cd.challenge a.expectedChallenge) ∧
    (req .createOrigin → ∃ s ∈ originList a.expectedOrigin, SameOrigin env cd.origin s) ∧
    (req .object → AttObjOf env ob o raw) ∧
    (req .stored → reg.registerAttestation ⟨a.credential, o, t, a.user, a.rp, path⟩ s = (.ok none, s'))

/-- What has to be true of a login. -/
def LogsInAs (req : Part → Prop) (env : Env) {σ : Type} (reg : Registrar σ) (a : AssertionArgs)
    (s s' : σ) : Prop :=
  ∃ data s1 user rp ad cdj raw sig handle cd,
    (req .known → reg.getCredentialData a.credential.rawId s = (.ok (some data), s1)) ∧
    (req .assertion → a.credential.response = .assertion cdj raw sig handle) ∧
    (req .user → UserOk data.user a.user handle user) ∧
    (req .rp → RpOk data.rp a.rp rp) ∧
    (req .getData → StandardClientData env cdj cd) ∧
    (req .getType → cd.type = "webauthn.get") ∧
    (req .getChallenge → Base64UrlText cd.challenge a.expectedChallenge) ∧
    (req .getOrigin → ∃ s ∈ originList a.expectedOrigin, SameOrigin env cd.origin s) ∧
    (req .authData → AuthDataOf env raw ad) ∧
    (req .rpHash → RpHashOk env raw rp.id) ∧
    (req .present → FlagSet raw 0) ∧
    (req .signed → SignedBy env data.publicKey sig (raw ++ env.sha256 cdj)) ∧
    (req .counter → CounterOkBy Above data.signatureCount raw a.ignoreCloneError) ∧
    (req .updated → reg.registerAssertion ⟨a.credential, ad, user, rp⟩ s1 = (.ok none, s'))

structure Keeps (req : Part → Prop) (env : Env) (pkg : Package) : Prop where
  registers : ∀ {σ : Type} (reg : Registrar σ) a s s', pkg.attestation reg a s = (.ok (), s') →
    RegistersAs req env reg a s s'
  registersNot : req .notStored → ∀ {σ : Type} (reg : Registrar σ) a s s' e,
    pkg.attestation reg a s = (.error e, s') →
    s' = s ∨ ∃ record w, reg.registerAttestation record s = (w, s') ∧ w ≠ .ok none
  logsIn : ∀ {σ : Type} (reg : Registrar σ) a s s', pkg.assertion reg a s = (.ok (), s') →
    LogsInAs req env reg a s s'
  logsInNot : req .notUpdated → ∀ {σ : Type} (reg : Registrar σ) a s s' e,
    pkg.assertion reg a s = (.error e, s') →
    s' = s ∨ s' = (reg.getCredentialData a.credential.rawId s).2 ∨
    ∃ record w, reg.registerAssertion record (reg.getCredentialData a.credential.rawId s).2 = (w, s') ∧
      w ≠ .ok none

/-- Packages that keep these parts give the guarantees of the application, whatever it runs on. -/
def Suffices (req : Part → Prop) : Prop :=
  ∀ app pkg, CodecLaws app.env → JsonLaw app.env → JsonRefusesMark app.env → Keeps req app.env pkg →
    Upheld (packageReply (fun _ => pkg) app []) app

end WebAuthn.Flask
