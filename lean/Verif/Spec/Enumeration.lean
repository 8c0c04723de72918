import Verif.Spec.FlaskOutcome

/-!
# Finding out who has an account
-/

namespace WebAuthn.Flask

open WebAuthn WebAuthn.Spec

/-- There is an account with the name. -/
def HasAccount (db : Db) (name : String) : Prop := ∃ u ∈ db.users, u.username = name

/-- The database with one more account, which has no credentials. -/
def withAccount (db : Db) (name : String) (handle : Bytes) : Db :=
  { db with users := db.users ++ [⟨db.users.length + 1, name, handle⟩] }

/-- The name has no account, and nobody has the handle. -/
def Free (db : Db) (name : String) (handle : Bytes) : Prop :=
  ∀ u ∈ db.users, u.username ≠ name ∧ u.handle ≠ handle

/-- Replies to requests that begin a login do not depend on whether the name has an account. -/
def HidesAccounts (app : App) : Prop :=
  ∀ db name handle, Consistent db → Free db name handle → ∀ ch t,
    (step app (.authenticationRequest (some name) ch t) db).1 =
      (step app (.authenticationRequest (some name) ch t) (withAccount db name handle)).1

end WebAuthn.Flask
