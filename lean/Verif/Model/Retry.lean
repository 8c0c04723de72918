import Verif.Model.Flask

/-!
# A registrar that takes a registration again

Not code of the repository.  `register_credential_attestation` of the example adds a row in every case
(app.py 90-97), which fails if there is one with the id.  Here it looks first:

    existing = Credential.query.filter_by(id=credential.raw_id).first()
    if (existing is not None and existing.user_id == user_model.id
            and existing.credential_public_key == cose_key(cpk)):
        return

It shows that C111 can be met by a small change.
-/

namespace WebAuthn.Flask

/-- The condition, after app.py 83-88. -/
def alreadyStored (env : Env) (r : AttestationRecord) (db : Db) : Bool :=
  match r.att.authData.attested, db.userOfHandle r.user.id with
  | some acd, some u =>
    match acd.credentialPublicKey with
    | none => false
    | some cpk =>
      match coseKey env cpk with
      | .error _ => false
      | .ok key => db.credentials.any fun c => c.id == r.credential.rawId && (c.userId == u.id && c.key == key)
  | _, _ => false

/-- `register_credential_attestation` (app.py 75-97) with it. -/
def retryAttestation (env : Env) (r : AttestationRecord) (db : Db) : Py (Option String) × Db :=
  if alreadyStored env r db then (.ok none, db) else registerAttestation env r db

def retryRegistrar (env : Env) : Registrar Db :=
  { registrar env with registerAttestation := retryAttestation env }

/-- `registration_response` (app.py 192-231) with this registrar. -/
def retryResponse (app : App) (f : Form) (now : Int) (db : Db) : Reply × Db :=
  match readResponse app true f now db with
  | .error r => (r, db)
  | .ok (c, ch, u) =>
    let (r, db) := handleAttestation app.env (retryRegistrar app.env) (attestationArgs c ch u) db
    (conclude "Could not handle credential attestation" r, db)

def retryStep (app : App) (e : Event) (db : Db) : Reply × Db :=
  match e with
  | .registrationResponse f t => retryResponse app f t db
  | e => step app e db

def retryRun (app : App) (evs : List Event) : Db :=
  evs.foldl (fun db e => (retryStep app e db).2) {}

def retryReply (app : App) (evs : List Event) (e : Event) : Reply :=
  (retryStep app e (retryRun app evs)).1

end WebAuthn.Flask
