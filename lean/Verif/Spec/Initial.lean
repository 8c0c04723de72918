import Verif.Spec.Counter
import Verif.Spec.Phishing

/-!
# The counter of a registration

WebAuthn 7.1 step 19 has the Relying Party store the counter of the registration as the first
value of the signature counter, and server-configuration.rst 64-66 tells registrars to take
it from `att.auth_data.sign_count`.  A login must have a greater one, unless the counter is
zero, which is how an authenticator without a counter reports.
-/

namespace WebAuthn.Spec

/-- The response is an attestation whose authenticator data have the counter `m`. -/
def HasInitialCounter (env : Env) (c : Credential) (m : Nat) : Prop :=
  ∃ cdj ob o raw, c.response = .attestation cdj ob ∧ AttObjOf env ob o raw ∧
    BigEndian ((raw.drop 33).take 4) m

/-- The registrar stores the counters of logins and also those of registrations. -/
structure StoresInitial {σ : Type} (reg : Registrar σ) (count : σ → Bytes → WithBot Int) : Prop
    extends StoresCounters reg count where
  initial : ∀ r s s', reg.registerAttestation r s = (.ok none, s') → r.att.authData.signCount ≠ 0 →
    ((r.att.authData.signCount : Int) : WithBot Int) ≤ count s' r.credential.rawId

end WebAuthn.Spec

namespace WebAuthn.Flask

open Spec

/-- After the history `pre`, the response `e` was answered (`rep`) with success, and was a
registration of the credential `id` with the counter `m`. -/
def BeginsBy (rep : List Event → Event → Reply) (app : App) (pre : List Event) (e : Event)
    (id : Bytes) (m : Nat) : Prop :=
  ∃ f t n c name, e = .registrationResponse f t ∧ rep pre e = success ∧
    Submits app f n c name ∧ c.rawId = id ∧ HasInitialCounter app.env c m

/-- A login has a greater counter than the registration of its credential, if that was not
zero. -/
def CounterAbove (rep : List Event → Event → Reply) (app : App) : Prop :=
  ∀ evs pre e e' id m k, Occurs evs pre e → BeginsBy rep app pre e id m →
    AuthenticatesBy rep app evs e' id k → m ≠ 0 → m < k

/-- A login in the events has the credential `id` and the counter `k`. -/
def LogsIn (app : App) (evs : List Event) (id : Bytes) (k : Nat) : Prop :=
  ∃ f t n c name, .authenticationResponse f t ∈ evs ∧ Submits app f n c name ∧ c.rawId = id ∧
    HasCounter c k

/-- A registration in the events has the credential `id` and the counter `m`. -/
def SignsUp (app : App) (evs : List Event) (id : Bytes) (m : Nat) : Prop :=
  ∃ f t n c name, .registrationResponse f t ∈ evs ∧ Submits app f n c name ∧ c.rawId = id ∧
    HasInitialCounter app.env c m

end WebAuthn.Flask
