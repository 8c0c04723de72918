import Verif.Spec.Guards
import Verif.Model.FlaskThreads

/-!
# Specification of overlapping requests that are answered as if they did not overlap

Everything is said by the requests and their answers.  `ans sched i` is what the request `i` has
been answered when what is in `sched` has happened to the requests; a moment is a beginning of
`sched`.
-/

namespace WebAuthn.Flask

open WebAuthn.Spec

variable {α ι : Type}

/-- The requests are answered one at a time, each as if it were the next after those that were
answered before it.  (So a request that arrives after another was answered is served after it,
and requests that are not answered have no effect.) -/
def Linearizable (rep : List Event → Event → Reply) (reqs : ι → Event)
    (ans : List α → ι → Option Reply) : Prop :=
  ∃ order : List α → List ι, order [] = [] ∧
    (∀ sched a, order (sched ++ [a]) = order sched ∨
      ∃ i, i ∉ order sched ∧ order (sched ++ [a]) = order sched ++ [i]) ∧
    ∀ sched i r, ans sched i = some r ↔
      ∃ pre post, order sched = pre ++ i :: post ∧ rep (pre.map reqs) (reqs i) = r

variable (ans : List α → ι → Option Reply) (app : App) (reqs : ι → Event)

/-- The request `j` by the user `name` at the time `t` has been answered with the challenge
number `n` whose bytes are `ch`. -/
def IssuedWith (sched : List α) (j : ι) (n : Nat) (ch : Bytes) (t : Int) (name : String) : Prop :=
  (∃ key v, ans sched j = some (.json (.dict [(.str "challengeID", .int n), (.str key, v)]))) ∧
  ((∃ h, reqs j = .registrationRequest (some name) h ch t) ∨
    reqs j = .authenticationRequest (some name) ch t)

/-- The response `j` at the time `t`, with the challenge number `n`, the credential `c` and the
user `name`, has been answered with success. -/
def SucceededWith (sched : List α) (j : ι) (t : Int) (n : Nat) (c : Credential) (name : String) : Prop :=
  ans sched j = some success ∧ ∃ f, (reqs j = .registrationResponse f t ∨
    reqs j = .authenticationResponse f t) ∧ Submits app f n c name

/-- The response `j` has registered for the user `name` the credential `id` with the attested
key `k`. -/
def RegisteredWith (sched : List α) (j : ι) (id : Bytes) (name : String) (k : CPK) : Prop :=
  ∃ f t n c cdj ob o raw acd, reqs j = .registrationResponse f t ∧ ans sched j = some success ∧
    Submits app f n c name ∧ c.rawId = id ∧ c.response = .attestation cdj ob ∧
    AttObjOf app.env ob o raw ∧ o.authData.attested = some acd ∧ acd.credentialPublicKey = some k

/-- The response `j` has been a successful registration of the credential `id` with the
counter `m`. -/
def BegunWith (sched : List α) (j : ι) (id : Bytes) (m : Nat) : Prop :=
  ∃ f t n c name, reqs j = .registrationResponse f t ∧ ans sched j = some success ∧
    Submits app f n c name ∧ c.rawId = id ∧ HasInitialCounter app.env c m

/-- The response `j` has been a successful login with the credential `id` and the counter
`m`. -/
def AuthenticatedWith (sched : List α) (j : ι) (id : Bytes) (m : Nat) : Prop :=
  ∃ f t n c name, reqs j = .authenticationResponse f t ∧ ans sched j = some success ∧
    Submits app f n c name ∧ c.rawId = id ∧ HasCounter c m

/-- The request `j` has been a successful login with the response `c`. -/
def LoginWith (sched : List α) (c : Credential) (j : ι) : Prop :=
  ∃ f t n name, reqs j = .authenticationResponse f t ∧ ans sched j = some success ∧
    Submits app f n c name

/-- `m` is a moment before `i` was answered. -/
def Earlier (sched : List α) (i : ι) (m : List α) : Prop := m <+: sched ∧ ans m i = none

/-- What is proved of single requests in C20, C47, C49, C50, C51, C65, C66, C67, C71, C72, C82
and C84, of overlapping ones. -/
structure SafeTogether : Prop where
  /-- C50, C51: the challenge was issued to the user at most 60000 ms before, and is in the
  client data. -/
  fresh : ∀ sched i t n c name, SucceededWith ans app reqs sched i t n c name →
    ∃ m j ch t' d text, Earlier ans sched i m ∧ IssuedWith ans reqs m j n ch t' name ∧
      t - t' ≤ 60000 ∧ ClientJson app.env c.response.clientDataJSON d ∧
      Lookup d (.str "challenge") (.str text) ∧ Base64UrlText text ch
  /-- C51: a challenge is used once. -/
  singleUse : ∀ sched i j t t' n c c' name name', SucceededWith ans app reqs sched i t n c name →
    SucceededWith ans app reqs sched j t' n c' name' → i = j
  /-- C49: the credential of a login was registered by the user, and its key signed. -/
  registered : ∀ sched i f now, reqs i = .authenticationResponse f now → ans sched i = some success →
    ∃ n c name m j k cdj raw sig handle, Submits app f n c name ∧ Earlier ans sched i m ∧
      RegisteredWith ans app reqs m j c.rawId name k ∧ c.response = .assertion cdj raw sig handle ∧
      SignedBy app.env k sig (raw ++ app.env.sha256 cdj)
  /-- C49: a credential id is registered once. -/
  once : ∀ sched j j' id name name' k k', RegisteredWith ans app reqs sched j id name k →
    RegisteredWith ans app reqs sched j' id name' k' → j = j' ∧ name = name' ∧ k = k'
  /-- C47: the counter of a login exceeds those of the logins that were answered before. -/
  increasing : ∀ sched m i j id a b, Earlier ans sched j m → AuthenticatedWith ans app reqs m i id a →
    AuthenticatedWith ans app reqs sched j id b → a < b
  /-- C48: no two logins with a credential have the same counter. -/
  distinct : ∀ sched i j id a, AuthenticatedWith ans app reqs sched i id a →
    AuthenticatedWith ans app reqs sched j id a → i = j
  /-- C82: the counter of a login exceeds that of the registration. -/
  above : ∀ sched i j id a b, BegunWith ans app reqs sched j id a →
    AuthenticatedWith ans app reqs sched i id b → a ≠ 0 → a < b
  /-- C65: the holder of the key approved the login, with a challenge that was issued to the
  user. -/
  approved : ∀ sched i j f now n c name name' k acts, Holder app.env k (SentIn app reqs) acts →
    RegisteredWith ans app reqs sched j c.rawId name' k → reqs i = .authenticationResponse f now →
    ans sched i = some success → Submits app f n c name →
    name' = name ∧ ∃ a m j' ch t', acts a ∧ Approves app.env a c ch ∧ Earlier ans sched i m ∧
      IssuedWith ans reqs m j' n ch t' name ∧ now - t' ≤ 60000
  /-- C67: one approval is good for one login. -/
  oneEach : ∀ sched j id name k acts, Holder app.env k (SentIn app reqs) acts →
    RegisteredWith ans app reqs sched j id name k →
    OneEach app.env acts (LoginWith ans app reqs sched) id
  /-- C66: only the holder of the key that was registered first under a name logs in under
  it. -/
  ownerOnly : ∀ sched i j id name k acts f now n c, RegisteredWith ans app reqs sched j id name k →
    (∀ m j' id' k', Earlier ans sched j m → ¬ RegisteredWith ans app reqs m j' id' name k') →
    Holder app.env k (SentIn app reqs) acts → reqs i = .authenticationResponse f now →
    ans sched i = some success → Submits app f n c name → ∃ a ch, acts a ∧ Approves app.env a c ch
  /-- C20: the id of a registered credential is the attested one. -/
  attestedId : ∀ sched i f t n c name cdj ob o raw acd, reqs i = .registrationResponse f t →
    ans sched i = some success → Submits app f n c name → c.response = .attestation cdj ob →
    AttObjOf app.env ob o raw → o.authData.attested = some acd → acd.credentialId = c.rawId
  /-- C71, C72: keys are for ES256 and credential keys of WebAuthn, and ids have at least 16
  bytes. -/
  keys : ∀ sched j id name k, RegisteredWith ans app reqs sched j id name k →
    KeyAlg k .ES256 ∧ Profile k ∧ 16 ≤ id.length

end WebAuthn.Flask
