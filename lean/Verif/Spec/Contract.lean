import Verif.Spec.Guards
import Verif.Spec.Whole
import Verif.Model.Package

/-!
# What the example application relies on

`Contract` is what the handlers of a package have to do, for any registrar, so that the guarantees
of the application hold (`Upheld`), whatever else they do or leave undone.  `StrictContract` has what
the application needs beyond that, with its own checks, for the properties that are false of it
today (`UpheldStrictly`).
-/

namespace WebAuthn.Flask

open WebAuthn WebAuthn.Spec

/-- The client data are of the type, have the challenge, and were made on a page of one of the
origins. -/
def ClientSays (env : Env) (cdj : Bytes) (type : String) (challenge : Bytes)
    (expected : ExpectedOrigin) : Prop :=
  ∃ cd, StandardClientData env cdj cd ∧ cd.type = type ∧ Base64UrlText cd.challenge challenge ∧
    ∃ s ∈ originList expected, SameOrigin env cd.origin s

/-- Whether a login with the counter `c` may follow if `n` is stored. -/
abbrev CounterRule := Int → Nat → Prop

/-- The rule of the code: only a greater one (backends.py 431-436). -/
def Above : CounterRule := fun n c => n < (c : Int)

/-- Counters do not fall, and what may follow a counter may follow a smaller one. -/
structure Ascending (rule : CounterRule) : Prop where
  le : ∀ n c, rule n c → n ≤ (c : Int)
  down : ∀ (m : Nat) n c, rule n c → (m : Int) ≤ n → rule m c

/-- The counter in the authenticator data may follow the stored one. -/
def CounterOkBy (rule : CounterRule) (stored : Option Int) (raw : Bytes) (ignoreClone : Bool) : Prop :=
  ∀ n, stored = some n → ignoreClone = false → ∃ c, BigEndian ((raw.drop 33).take 4) c ∧ rule n c

structure ContractBy (rule : CounterRule) (env : Env) (pkg : Package) : Prop where
  /-- Who is registered sent a response to the challenge from the origin, and the registrar took
  the attestation object in it. -/
  registers : ∀ {σ : Type} (reg : Registrar σ) a s s', pkg.attestation reg a s = (.ok (), s') →
    ∃ cdj ob o raw t path, a.credential.response = .attestation cdj ob ∧
      ClientSays env cdj "webauthn.create" a.expectedChallenge a.expectedOrigin ∧
      AttObjOf env ob o raw ∧
      reg.registerAttestation ⟨a.credential, o, t, a.user, a.rp, path⟩ s = (.ok none, s')
  /-- Who is not registered did not get to the registrar, or it did not take it. -/
  registersNot : ∀ {σ : Type} (reg : Registrar σ) a s s' e, pkg.attestation reg a s = (.error e, s') →
    s' = s ∨ ∃ record w, reg.registerAttestation record s = (w, s') ∧ w ≠ .ok none
  /-- Who logs in is the user of the credential, sent a response to the challenge from the origin,
  signed with the key of the credential for the Relying Party by a user who was present, with a
  counter that may follow the stored one, and the registrar took it. -/
  logsIn : ∀ {σ : Type} (reg : Registrar σ) a s s', pkg.assertion reg a s = (.ok (), s') →
    ∃ cd s1 user rp ad cdj raw sig handle,
      reg.getCredentialData a.credential.rawId s = (.ok (some cd), s1) ∧
      a.credential.response = .assertion cdj raw sig handle ∧ UserOk cd.user a.user handle user ∧
      RpOk cd.rp a.rp rp ∧ ClientSays env cdj "webauthn.get" a.expectedChallenge a.expectedOrigin ∧
      AuthDataOf env raw ad ∧ RpHashOk env raw rp.id ∧ FlagSet raw 0 ∧
      SignedBy env cd.publicKey sig (raw ++ env.sha256 cdj) ∧
      CounterOkBy rule cd.signatureCount raw a.ignoreCloneError ∧
      reg.registerAssertion ⟨a.credential, ad, user, rp⟩ s1 = (.ok none, s')
  /-- Who does not log in did not get to the registrar but for the reading, or it did not take it. -/
  logsInNot : ∀ {σ : Type} (reg : Registrar σ) a s s' e, pkg.assertion reg a s = (.error e, s') →
    s' = s ∨ s' = (reg.getCredentialData a.credential.rawId s).2 ∨
    ∃ record w, reg.registerAssertion record (reg.getCredentialData a.credential.rawId s).2 = (w, s') ∧
      w ≠ .ok none

/-- With the rule of the code for counters. -/
abbrev Contract := ContractBy Above

/-- What is registered is about the credential with the raw id, and has a key that was asked for. -/
structure StrictContractBy (rule : CounterRule) (env : Env) (algs : List Alg) (pkg : Package) : Prop
    extends ContractBy rule env pkg where
  attests : ∀ {σ : Type} (reg : Registrar σ) a s s' cdj ob o raw,
    pkg.attestation reg a s = (.ok (), s') → a.credential.response = .attestation cdj ob →
    AttObjOf env ob o raw → RawIdAttests a.credential o.authData ∧ AskedFor algs o.authData

abbrev StrictContract := StrictContractBy Above

/-- `a` is the approval of the login at the application with the response `c`, as in `Approves`: on
a page of its origin, however spelled. -/
structure ApprovesLogin (env : Env) (a : Approval) (c : Credential) (ch : Bytes) : Prop where
  page : SameOrigin env a.origin "http://localhost:5000"
  login : a.type = "webauthn.get"
  challenge : a.challenge = ch
  rp : RpHashOk env a.raw "localhost"
  present : FlagSet a.raw 0
  response : ∃ sig handle, c.response = .assertion a.cdj a.raw sig handle

/-- The type of the client data that belongs to a response. -/
def ceremony : Event → String
  | .registrationResponse .. => "webauthn.create"
  | _ => "webauthn.get"

/-- What `Guarantees` has, for client data as the standard reads them and origins as it compares
them. -/
structure UpheldBy (rule : CounterRule) (rep : List Event → Event → Reply) (app : App) : Prop where
  /-- C50: the challenge was issued at most 60000 ms before, and is in the client data, which were
  made for the ceremony on a page of the application. -/
  fresh : ∀ evs e t n c name, SucceedsBy rep app evs e t n c name →
    ∃ pre e' ch t' name', Occurs evs pre e' ∧ IssuesBy rep pre e' n ch t' name' ∧ t - t' ≤ 60000 ∧
      ClientSays app.env c.response.clientDataJSON (ceremony e) ch (.one "http://localhost:5000")
  /-- C49: the credential was registered by the user, and its key signed. -/
  registered : ∀ evs f now, rep evs (.authenticationResponse f now) = success →
    ∃ n c name pre e k cdj raw sig handle, Submits app f n c name ∧ Occurs evs pre e ∧
      RegistersBy rep app pre e c.rawId name k ∧ c.response = .assertion cdj raw sig handle ∧
      SignedBy app.env k sig (raw ++ app.env.sha256 cdj)
  /-- C49: a credential id is registered once. -/
  once : ∀ evs pre pre' e e' id name name' k k', Occurs evs pre e →
    RegistersBy rep app pre e id name k → Occurs evs pre' e' →
    RegistersBy rep app pre' e' id name' k' → pre = pre' ∧ e = e' ∧ name = name' ∧ k = k'
  /-- C47: counters follow each other as they may (with `Above`: they increase). -/
  increasing : ∀ evs pre e e' id m m', Occurs evs pre e → AuthenticatesBy rep app pre e id m →
    AuthenticatesBy rep app evs e' id m' → rule m m'
  /-- C65: the holder of the key approved the login. -/
  approved : ∀ evs pre e f now n c name name' k acts,
    Holder app.env k (Sent app (evs ++ [.authenticationResponse f now])) acts →
    Occurs evs pre e → RegistersBy rep app pre e c.rawId name' k →
    rep evs (.authenticationResponse f now) = success → Submits app f n c name →
    name' = name ∧ ∃ a pre' e' ch t' name'', acts a ∧ ApprovesLogin app.env a c ch ∧
      Occurs evs pre' e' ∧ IssuesBy rep pre' e' n ch t' name'' ∧ now - t' ≤ 60000
  /-- C67: one approval is good for one login. -/
  oneEach : ∀ evs pre e id name k acts, Holder app.env k (Sent app evs) acts → Occurs evs pre e →
    RegistersBy rep app pre e id name k → ∃ approval : Nat → Option Approval,
      (∀ i c, LoginNumber rep app evs c i → c.rawId = id →
        ∃ a ch, approval i = some a ∧ acts a ∧ ApprovesLogin app.env a c ch) ∧
      ∀ i j c c', LoginNumber rep app evs c i → c.rawId = id → LoginNumber rep app evs c' j →
        c'.rawId = id → approval i = approval j → i = j

abbrev Upheld := UpheldBy Above

/-- What `Strong` has. -/
structure UpheldStrictlyBy (rule : CounterRule) (rep : List Event → Event → Reply) (app : App) : Prop
    extends UpheldBy rule rep app where
  /-- C51 -/
  singleUse : SingleUse rep app
  /-- C51 -/
  userBound : UserBound rep app
  /-- C66 -/
  ownerOnly : ∀ evs pre e id name k acts f now n c,
    Occurs evs pre e → RegistersBy rep app pre e id name k →
    (∀ pre' e' id' k', Occurs pre pre' e' → ¬ RegistersBy rep app pre' e' id' name k') →
    Holder app.env k (Sent app (evs ++ [.authenticationResponse f now])) acts →
    rep evs (.authenticationResponse f now) = success → Submits app f n c name →
    ∃ a ch, acts a ∧ ApprovesLogin app.env a c ch
  /-- C20: the id of a registered credential is the attested one. -/
  attestedId : ∀ evs f t n c name cdj ob o raw acd,
    rep evs (.registrationResponse f t) = success → Submits app f n c name →
    c.response = .attestation cdj ob → AttObjOf app.env ob o raw → o.authData.attested = some acd →
    acd.credentialId = c.rawId
  /-- C71 -/
  requested : RequestedOnly rep app
  /-- C72 -/
  profile : ∀ evs e id name k, RegistersBy rep app evs e id name k → Profile k
  /-- Credential ids have at least 16 bytes. -/
  longId : ∀ evs e id name k, RegistersBy rep app evs e id name k → 16 ≤ id.length
  /-- C82 -/
  above : CounterAbove rep app

abbrev UpheldStrictly := UpheldStrictlyBy Above

end WebAuthn.Flask
