import Verif.Model.FlaskFaults
import Verif.Spec.FlaskAtomic

/-!
# Specification of the example application with statements that fail

A moment is a beginning of the order in which the statements were executed, with the faults
in it.  A request that failed after a statement had its effect may have done what it asks
for, though it was not told so.
-/

namespace WebAuthn.Flask

open WebAuthn WebAuthn.Spec

/-- The answers to requests that fail. -/
def Failed (r : Reply) : Prop :=
  r = .crash operationalError ∨ r = .text "Could not handle credential attestation" 400 ∨
    r = .text "Could not handle credential assertion" 400

variable {ι : Type}

/-- No statement of `i` fails. -/
def Spared (sched : List (ι × Fault)) (i : ι) : Prop := ∀ f, (i, f) ∈ sched → f = .no

/-- The response `e` is to register for the user `name` the credential `id` with the
attested key `k`. -/
def ToRegister (app : App) (e : Event) (id : Bytes) (name : String) (k : CPK) : Prop :=
  ∃ f t n c cdj ob o raw acd, e = .registrationResponse f t ∧ Submits app f n c name ∧ c.rawId = id ∧
    c.response = .attestation cdj ob ∧ AttObjOf app.env ob o raw ∧ o.authData.attested = some acd ∧
    acd.credentialPublicKey = some k

/-- The response `e` is a login with the credential `id` and the counter `m`. -/
def ToLogIn (app : App) (e : Event) (id : Bytes) (m : Nat) : Prop :=
  ∃ f t n c name, e = .authenticationResponse f t ∧ Submits app f n c name ∧ c.rawId = id ∧
    HasCounter c m

/-- `e` asks for a challenge for the user `name` at the time `t`, and is given the bytes `ch`. -/
def ToChallenge (e : Event) (ch : Bytes) (t : Int) (name : String) : Prop :=
  (∃ h, e = .registrationRequest (some name) h ch t) ∨ e = .authenticationRequest (some name) ch t

/-- By the moment `pre`, `j` was answered with success, or failed after one of its statements had
its effect. -/
def Succeeded (ans : List (ι × Fault) → ι → Option Reply) (pre : List (ι × Fault)) (j : ι) : Prop :=
  ans pre j = some success ∨ (j, .after) ∈ pre

end WebAuthn.Flask
