import Verif.Model.Flask

/-!
# A registrar that stores the counter of the registration

Not code of the repository.  `register_credential_attestation` of the example stores `None`
(app.py 92).  Here it stores `att.auth_data.sign_count`, as server-configuration.rst 64-66 says,
and `None` for a counter of zero.  It shows that C82 can be met by a small change.
-/

namespace WebAuthn.Flask

/-- `register_credential_attestation` (app.py 75-97) with another value in line 92. -/
def initialAttestation (env : Env) (r : AttestationRecord) (db : Db) : Py (Option String) × Db :=
  match registerAttestation env r db with
  | (.ok none, db) =>
    if r.att.authData.signCount = 0 then (.ok none, db)
    else (.ok none, { db with
      credentials := db.credentials.map (setCount r.credential.rawId r.att.authData.signCount) })
  | x => x

def initialRegistrar (env : Env) : Registrar Db :=
  { registrar env with registerAttestation := initialAttestation env }

/-- `registration_response` (app.py 192-231) with this registrar. -/
def initialResponse (app : App) (f : Form) (now : Int) (db : Db) : Reply × Db :=
  match readResponse app true f now db with
  | .error r => (r, db)
  | .ok (c, ch, u) =>
    let (r, db) := handleAttestation app.env (initialRegistrar app.env) (attestationArgs c ch u) db
    (conclude "Could not handle credential attestation" r, db)

def initialStep (app : App) (e : Event) (db : Db) : Reply × Db :=
  match e with
  | .registrationResponse f t => initialResponse app f t db
  | e => step app e db

def initialRun (app : App) (evs : List Event) : Db :=
  evs.foldl (fun db e => (initialStep app e db).2) {}

def initialReply (app : App) (evs : List Event) (e : Event) : Reply :=
  (initialStep app e (initialRun app evs)).1

end WebAuthn.Flask
