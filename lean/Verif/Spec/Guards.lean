import Verif.Spec.Initial
import Verif.Spec.Choosy

/-!
# All the guarantees of the example application together

`Guarantees` has what is proved of the application in C47, C49, C50, C65 and C67, for any way
(`rep`) of answering requests.  `Strong` has what is false of the application and proved of
repaired ones in C20, C51, C66, C71, C72 and C82, and that credential ids are as long as
documented (server-configuration.rst 42-43).
-/

namespace WebAuthn.Flask

open WebAuthn.Spec

/-- The event number `i` of the history is a login with the response `c` that was answered
(`rep`) with success. -/
def LoginNumber (rep : List Event → Event → Reply) (app : App) (evs : List Event) (c : Credential)
    (i : Nat) : Prop :=
  ∃ f t n name, evs[i]? = some (.authenticationResponse f t) ∧
    rep (evs.take i) (.authenticationResponse f t) = success ∧ Submits app f n c name

structure Guarantees (rep : List Event → Event → Reply) (app : App) : Prop where
  /-- C50: the challenge was issued at most 60000 ms before, and is in the client data. -/
  fresh : ∀ evs e t n c name, SucceedsBy rep app evs e t n c name →
    ∃ pre e' ch t' name' d text, Occurs evs pre e' ∧ IssuesBy rep pre e' n ch t' name' ∧
      t - t' ≤ 60000 ∧ ClientJson app.env c.response.clientDataJSON d ∧
      Lookup d (.str "challenge") (.str text) ∧ Base64UrlText text ch
  /-- C49: the credential was registered by the user, and its key signed. -/
  registered : ∀ evs f now, rep evs (.authenticationResponse f now) = success →
    ∃ n c name pre e k cdj raw sig handle, Submits app f n c name ∧ Occurs evs pre e ∧
      RegistersBy rep app pre e c.rawId name k ∧ c.response = .assertion cdj raw sig handle ∧
      SignedBy app.env k sig (raw ++ app.env.sha256 cdj)
  /-- C49: a credential id is registered once. -/
  once : ∀ evs pre pre' e e' id name name' k k', Occurs evs pre e →
    RegistersBy rep app pre e id name k → Occurs evs pre' e' →
    RegistersBy rep app pre' e' id name' k' → pre = pre' ∧ e = e' ∧ name = name' ∧ k = k'
  /-- C47: counters increase. -/
  increasing : ∀ evs pre e e' id m m', Occurs evs pre e → AuthenticatesBy rep app pre e id m →
    AuthenticatesBy rep app evs e' id m' → m < m'
  /-- C65: the holder of the key approved the login. -/
  approved : ∀ evs pre e f now n c name name' k acts,
    Holder app.env k (Sent app (evs ++ [.authenticationResponse f now])) acts →
    Occurs evs pre e → RegistersBy rep app pre e c.rawId name' k →
    rep evs (.authenticationResponse f now) = success → Submits app f n c name →
    name' = name ∧ ∃ a pre' e' ch t' name'', acts a ∧ Approves app.env a c ch ∧
      Occurs evs pre' e' ∧ IssuesBy rep pre' e' n ch t' name'' ∧ now - t' ≤ 60000
  /-- C67: one approval is good for one login. -/
  oneEach : ∀ evs pre e id name k acts, Holder app.env k (Sent app evs) acts → Occurs evs pre e →
    RegistersBy rep app pre e id name k → OneEach app.env acts (LoginNumber rep app evs) id

structure Strong (rep : List Event → Event → Reply) (app : App) : Prop where
  /-- C51 -/
  singleUse : SingleUse rep app
  /-- C51 -/
  userBound : UserBound rep app
  /-- C66 -/
  ownerOnly : OwnerOnly rep app
  /-- C20: the id of a registered credential is the attested one. -/
  attestedId : ∀ evs f t n c name cdj ob o raw acd,
    rep evs (.registrationResponse f t) = success → Submits app f n c name →
    c.response = .attestation cdj ob → AttObjOf app.env ob o raw → o.authData.attested = some acd →
    acd.credentialId = c.rawId
  /-- C71 -/
  requested : RequestedOnly rep app
  /-- C72 -/
  profile : ∀ evs e id name k, RegistersBy rep app evs e id name k → Profile k
  /-- Credential ids have at least 16 bytes. -/
  longId : ∀ evs e id name k, RegistersBy rep app evs e id name k → 16 ≤ id.length
  /-- C82 -/
  above : CounterAbove rep app

end WebAuthn.Flask
