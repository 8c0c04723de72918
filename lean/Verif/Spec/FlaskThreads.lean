import Verif.Model.FlaskThreads
import Verif.Spec.Flask

/-!
# Specification of the example application with requests in progress at the same time

Everything is said by the requests and their answers.  `sched` is the order in which
the statements of the requests were executed; a moment is a beginning of it.
-/

namespace WebAuthn.Flask

open WebAuthn WebAuthn.Spec

variable {ι : Type} [DecidableEq ι]

/-- At the moment `pre`, the request `j` by the user `name` at the time `t` has been
answered with the challenge number `n` whose bytes are `ch`. -/
def IssuedAt (app : App) (reqs : ι → Event) (pre : List ι) (j : ι) (n : Nat) (ch : Bytes) (t : Int)
    (name : String) : Prop :=
  (∃ key v, answer app reqs pre j =
    some (.json (.dict [(.str "challengeID", .int n), (.str key, v)]))) ∧
  ((∃ h, reqs j = .registrationRequest (some name) h ch t) ∨
    reqs j = .authenticationRequest (some name) ch t)

/-- At the moment `pre`, the response `j` has registered for the user `name` the
credential `id` with the attested key `k`. -/
def RegisteredAt (app : App) (reqs : ι → Event) (pre : List ι) (j : ι) (id : Bytes) (name : String)
    (k : CPK) : Prop :=
  ∃ f t n c cdj ob o raw acd, reqs j = .registrationResponse f t ∧
    answer app reqs pre j = some success ∧ Submits app f n c name ∧ c.rawId = id ∧
    c.response = .attestation cdj ob ∧ AttObjOf app.env ob o raw ∧ o.authData.attested = some acd ∧
    acd.credentialPublicKey = some k

/-- At the moment `pre`, the response `j` has been a successful authentication with the
credential `id` and the counter `m`. -/
def AuthenticatedAt (app : App) (reqs : ι → Event) (pre : List ι) (j : ι) (id : Bytes) (m : Int) :
    Prop :=
  ∃ f t n c name, ∃ k : Nat, reqs j = .authenticationResponse f t ∧
    answer app reqs pre j = some success ∧ Submits app f n c name ∧ c.rawId = id ∧ m = k ∧
    HasCounter c k

/-- The keys of the tables are unique, and rows are numbered in the order in which they
were added. -/
structure Keyed (db : Db) : Prop where
  userIds : ∀ (i : Nat) (u : User), db.users[i]? = some u → u.id = i + 1
  names : db.users.Pairwise fun a b => a.username ≠ b.username
  handles : db.users.Pairwise fun a b => a.handle ≠ b.handle
  challengeIds : ∀ (i : Nat) (c : Challenge), db.challenges[i]? = some c → c.id = i + 1
  requests : db.challenges.Pairwise fun a b => a.request ≠ b.request
  credentialIds : db.credentials.Pairwise fun a b => a.id ≠ b.id

/-- Before `i` is answered, in the order `sched`. -/
def Before (app : App) (reqs : ι → Event) (sched : List ι) (i : ι) (pre : List ι) : Prop :=
  pre <+: sched ∧ answer app reqs pre i = none

end WebAuthn.Flask
