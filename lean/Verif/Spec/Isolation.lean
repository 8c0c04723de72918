import Verif.Spec.FlaskOutcome

/-!
# What the application holds about one user
-/

namespace WebAuthn.Flask

open WebAuthn WebAuthn.Spec

/-- The user name that a request carries. -/
def Event.name : Event → Option String
  | .registrationRequest n _ _ _ => n
  | .registrationResponse f _ => f.username
  | .authenticationRequest n _ _ => n
  | .authenticationResponse f _ => f.username

/-- The row belongs to the user with the name. -/
def OwnedBy (db : Db) (name : String) (r : CredentialRow) : Prop :=
  ∃ u ∈ db.users, u.id = r.userId ∧ u.username = name

instance (db : Db) (name : String) : DecidablePred (OwnedBy db name) := fun r =>
  inferInstanceAs (Decidable (∃ u ∈ db.users, u.id = r.userId ∧ u.username = name))

/-- The handles under the name (there is at most one). -/
def handlesOf (name : String) (db : Db) : List Bytes :=
  (db.users.filter fun u => u.username = name).map User.handle

/-- The credentials of the user: ids, counters and keys. -/
def holdings (name : String) (db : Db) : List (Bytes × Option Int × Bytes) :=
  (db.credentials.filter fun r => OwnedBy db name r).map fun r => (r.id, r.count, r.key)

/-- The challenges with their numbers and times, whoever they were issued to. -/
def issued (db : Db) : List (Nat × Bytes × Int) :=
  db.challenges.map fun c => (c.id, c.request, c.timestamp)

/-- The two databases hold the same about the user, and the same challenges.  They may
differ in the other users, their credentials, and the order in which users registered. -/
structure Alike (name : String) (db db' : Db) : Prop where
  handles : handlesOf name db = handlesOf name db'
  holdings : holdings name db = holdings name db'
  issued : issued db = issued db'

/-- Another user neither has the new random handle nor the credential id that is to be
registered. -/
def NoClash (app : App) (name : String) (db : Db) : Event → Prop
  | .registrationRequest _ h _ _ => ∀ u ∈ db.users, u.handle = h → u.username = name
  | .registrationResponse f _ => ∀ cid c n, Readable app f cid c n →
      ∀ r ∈ db.credentials, r.id = c.rawId → OwnedBy db name r
  | _ => True

/-- Two histories in which the user does the same, while the others do what they like, as
long as the challenges issued are the same. -/
inductive Matched (app : App) (name : String) : List Event → List Event → Prop
  | nil : Matched app name [] []
  | own (evs evs' : List Event) (e : Event) : Matched app name evs evs' → e.name = some name →
      NoClash app name (run app evs) e → NoClash app name (run app evs') e →
      Matched app name (evs ++ [e]) (evs' ++ [e])
  | others (evs evs' as bs : List Event) : Matched app name evs evs' →
      (∀ e ∈ as, e.name ≠ some name) → (∀ e ∈ bs, e.name ≠ some name) →
      issued (run app (evs ++ as)) = issued (run app (evs' ++ bs)) →
      Matched app name (evs ++ as) (evs' ++ bs)

end WebAuthn.Flask
