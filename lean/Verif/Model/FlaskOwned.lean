import Verif.Model.Flask

/-!
# The example application with one owner per user name

Not code of the repository.  `registration_response` (app.py 192-231) adds a credential
to a user who has one already, whoever asks.  Here it refuses to.  It shows that C66 can
be met by a small change.
-/

namespace WebAuthn.Flask

/-- The additional check: the user has a credential. -/
def taken (app : App) (e : Event) (db : Db) : Bool :=
  match e with
  | .registrationResponse f t =>
    match readResponse app true f t db with
    | .ok (_, _, u) => db.credentials.any fun c => c.userId == u.id
    | .error _ => false
  | _ => false

def ownedStep (app : App) (e : Event) (db : Db) : Reply × Db :=
  if taken app e db then (.text "User already registered" 400, db) else step app e db

def ownedRun (app : App) (evs : List Event) : Db := evs.foldl (fun db e => (ownedStep app e db).2) {}

def ownedReply (app : App) (evs : List Event) (e : Event) : Reply :=
  (ownedStep app e (ownedRun app evs)).1

end WebAuthn.Flask
