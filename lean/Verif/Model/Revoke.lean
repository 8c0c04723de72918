import Verif.Model.Guards

/-!
# The example application, credentials of which are revoked

Not code of the repository.  When an authenticator is lost its credential has to be revoked.  The
application (app.py) has no way to do so, but the operator can delete the row of the credential
(app.py 50-54) between two requests.  The application is as it is.
-/

namespace WebAuthn.Flask

/-- A request, or the revocation of the credential `id`. -/
inductive Op where
  | request (e : Event)
  | revoke (id : Bytes)

/-- `DELETE FROM credential WHERE id = …`. -/
def Db.revoke (db : Db) (id : Bytes) : Db := { db with credentials := db.credentials.filter fun c => c.id != id }

def revokedStep (app : App) (db : Db) : Op → Db
  | .request e => (step app e db).2
  | .revoke id => db.revoke id

/-- The tables. -/
def revokedRun (app : App) (ops : List Op) : Db := ops.foldl (revokedStep app) {}

def revokedReply (app : App) (ops : List Op) (e : Event) : Reply := (step app e (revokedRun app ops)).1

/-! ## Revoked credentials are refused

Here the row stays, and the application has a list of the revoked ids: responses with one of them are
refused. -/

/-- The credential id in a response. -/
def credentialIn (app : App) (e : Event) : Option Bytes :=
  ((formIn e).bind (submission app)).map fun s => s.2.1.rawId

def barredStep (app : App) (e : Event) (s : Db × List Bytes) : Reply × Db :=
  if (credentialIn app e).any fun id => s.2.contains id then (.text "Revoked credential" 400, s.1) else step app e s.1

/-- The tables and the list. -/
def barredRun (app : App) (ops : List Op) : Db × List Bytes :=
  ops.foldl (fun s => fun
    | .request e => ((barredStep app e s).2, s.2)
    | .revoke id => (s.1, id :: s.2)) ({}, [])

def barredReply (app : App) (ops : List Op) (e : Event) : Reply := (barredStep app e (barredRun app ops)).1

end WebAuthn.Flask
