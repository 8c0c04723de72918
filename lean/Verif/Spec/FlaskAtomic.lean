import Verif.Model.FlaskAtomic
import Verif.Spec.Phishing

/-!
# Specification of applications with requests in progress at the same time

As `Verif/Spec/FlaskThreads.lean`, for any application: `ans pre j` is what the request
`j` has been answered by the moment `pre`.  A moment is a list (of requests, for the order
in which their statements were executed).
-/

namespace WebAuthn.Flask

open WebAuthn WebAuthn.Spec

variable {ι α : Type}

/-- `IssuedAt` of the answers `ans`. -/
def IssuedBy (ans : List α → ι → Option Reply) (reqs : ι → Event) (pre : List α) (j : ι)
    (n : Nat) (ch : Bytes) (t : Int) (name : String) : Prop :=
  (∃ key v, ans pre j = some (.json (.dict [(.str "challengeID", .int n), (.str key, v)]))) ∧
  ((∃ h, reqs j = .registrationRequest (some name) h ch t) ∨
    reqs j = .authenticationRequest (some name) ch t)

/-- `RegisteredAt` of the answers `ans`. -/
def RegisteredBy (ans : List α → ι → Option Reply) (app : App) (reqs : ι → Event) (pre : List α)
    (j : ι) (id : Bytes) (name : String) (k : CPK) : Prop :=
  ∃ f t n c cdj ob o raw acd, reqs j = .registrationResponse f t ∧
    ans pre j = some success ∧ Submits app f n c name ∧ c.rawId = id ∧
    c.response = .attestation cdj ob ∧ AttObjOf app.env ob o raw ∧ o.authData.attested = some acd ∧
    acd.credentialPublicKey = some k

/-- The request `i` has been a successful login with the response `c`. -/
def LoginBy (ans : List α → ι → Option Reply) (app : App) (reqs : ι → Event) (pre : List α)
    (c : Credential) (i : ι) : Prop :=
  ∃ f t n name, reqs i = .authenticationResponse f t ∧ ans pre i = some success ∧
    Submits app f n c name

/-- Before `i` is answered, in the order `sched`. -/
def NotYet (ans : List α → ι → Option Reply) (sched : List α) (i : ι) (pre : List α) : Prop :=
  pre <+: sched ∧ ans pre i = none

end WebAuthn.Flask
