import Verif.Model.Backend
import Verif.Model.Options

/-!
# The example application (examples/flask/app.py)

The database is the content of its three tables.  SQLite stores the `bytes` given
to a `String` column as they are and compares them byte by byte; a new row of a
table with an integer key gets the next number (rows are never deleted).  A
commit that violates a `unique` or `primary_key` constraint raises
`IntegrityError` and leaves the database unchanged.  The random bytes and the
clock are part of the event.  One request is handled at a time.

Not modelled: `json.dumps` and HTTP (a reply is its content and status), the
template, the `print` of line 243, `create_all` and the removal of the file.
-/

namespace WebAuthn.Flask

open WebAuthn

/-- `User` (app.py 36-47). -/
structure User where
  id : Nat
  username : String
  handle : Bytes
  deriving DecidableEq, Repr

/-- `Credential` (app.py 50-54). -/
structure CredentialRow where
  id : Bytes
  count : Option Int
  key : Bytes
  userId : Nat
  deriving DecidableEq, Repr

/-- `Challenge` (app.py 57-61). -/
structure Challenge where
  id : Nat
  request : Bytes
  timestamp : Int
  userId : Nat
  deriving DecidableEq, Repr

structure Db where
  users : List User := []
  credentials : List CredentialRow := []
  challenges : List Challenge := []
  deriving DecidableEq, Repr

/-- `sqlalchemy.exc.IntegrityError`. -/
def integrityError : Exc := .other 0

/-- The environment of the application: that of the package, and the comparison
of the submitted `challengeID` with an integer column: the number that SQLite
takes the text for. -/
structure App where
  env : Env
  rowId : String → Option Nat

/-! ## Queries -/

/-- `User.query.filter_by(username=username).first()`. -/
def Db.userNamed (db : Db) (name : String) : Option User :=
  db.users.find? fun u => u.username == name

/-- `User.by_user_handle` (app.py 45-47). -/
def Db.userOfHandle (db : Db) (handle : Bytes) : Option User :=
  db.users.find? fun u => u.handle == handle

/-- `Credential.query.filter_by(id=id).first()`. -/
def Db.credential (db : Db) (id : Bytes) : Option CredentialRow :=
  db.credentials.find? fun c => c.id == id

/-- `credential_model.user`: the row that `user_id` refers to. -/
def Db.userOfId (db : Db) (id : Nat) : Option User :=
  db.users.find? fun u => u.id == id

/-- `Challenge.query.filter_by(id=challengeID).first()`. -/
def Db.challenge (db : Db) (id : Option Nat) : Option Challenge :=
  match id with
  | none => none
  | some n => db.challenges.find? fun c => c.id == n

/-- Add a user and commit (app.py 159-163). -/
def Db.addUser (db : Db) (name : String) (handle : Bytes) : Py User × Db :=
  if db.users.any fun u => u.username == name || u.handle == handle then
    (.error integrityError, db)
  else
    let u : User := ⟨db.users.length + 1, name, handle⟩
    (.ok u, { db with users := db.users ++ [u] })

/-- Add a challenge and commit (app.py 165-172, 247-254). -/
def Db.addChallenge (db : Db) (request : Bytes) (now : Int) (userId : Nat) : Py Nat × Db :=
  if db.challenges.any fun c => c.request == request then (.error integrityError, db)
  else
    let id := db.challenges.length + 1
    (.ok id, { db with challenges := db.challenges ++ [⟨id, request, now, userId⟩] })

/-! ## `RegistrarImpl` (app.py 74-120) -/

/-- `register_credential_attestation` (app.py 75-97).  `cose_key(None)` raises
`UnimplementedError` (converters.py 178-188). -/
def registerAttestation (env : Env) (r : AttestationRecord) (db : Db) : Py (Option String) × Db :=
  match r.att.authData.attested with
  | none => (.error .assertionError, db)
  | some acd =>
    match db.userOfHandle r.user.id with
    | none => (.ok (some "No user found"), db)
    | some u =>
      match acd.credentialPublicKey with
      | none => (raise .unimplemented, db)
      | some cpk =>
        match coseKey env cpk with
        | .error e => (.error e, db)
        | .ok key =>
          if db.credentials.any fun c => c.id == r.credential.rawId then
            (.error integrityError, db)
          else
            (.ok none, { db with
              credentials := db.credentials ++ [⟨r.credential.rawId, none, key, u.id⟩] })

/-- Assign `signature_count` of the row with a key. -/
def setCount (id : Bytes) (n : Int) (c : CredentialRow) : CredentialRow :=
  if c.id == id then { c with count := some n } else c

/-- `register_credential_assertion` (app.py 99-106). -/
def registerAssertion (r : AssertionRecord) (db : Db) : Py (Option String) × Db :=
  match db.credential r.credential.rawId with
  | none => (.error .attributeError, db)
  | some _ => (.ok none, { db with
      credentials := db.credentials.map (setCount r.credential.rawId r.authData.signCount) })

/-- The user entity made of a row (app.py 117-120, 217-219, 301-303). -/
def User.entity (u : User) : UserEntity := { name := u.username, id := u.handle, displayName := u.username }

/-- The body of `get_credential_data` (app.py 108-120). -/
def credentialData (env : Env) (id : Bytes) (db : Db) : Py (Option CredentialData) :=
  match db.credential id with
  | none => .ok none
  | some c => do
    let key ← parseCoseKeyBytes env c.key
    match db.userOfId c.userId with
    | none => .error .attributeError
    | some u => return some ⟨key, c.count, u.entity, none⟩

def registrar (env : Env) : Registrar Db where
  registerAttestation := registerAttestation env
  registerAssertion := registerAssertion
  getCredentialData := fun id db => (credentialData env id db, db)

/-! ## Configuration (app.py 125-144) -/

def origin : String := "http://localhost:5000"

def timeout : Int := 60000

def rp : RpEntity := { name := "localhost", id := "localhost" }

/-- `APP_CCO_BUILDER` (app.py 130-137). -/
def creationBuilder : CreationBuilder where
  rp := some rp
  pubKeyCredParams := some { items := [⟨.value .ES256⟩] }
  timeout := some timeout

/-- `APP_CRO_BUILDER` (app.py 139-142). -/
def requestBuilder : RequestBuilder where
  rpId := some rp.id
  timeout := some timeout

/-! ## Endpoints -/

/-- What the client gets: a JSON object, a text with a status, or the status 500
of an exception that no handler catches. -/
inductive Reply where
  | json (v : PyVal)
  | text (message : String) (status : Nat)
  | crash (e : Exc)

/-- `return ('Success', 200)`. -/
def success : Reply := .text "Success" 200

/-- A missing form field in a request endpoint: `BadRequestKeyError`. -/
def badRequest : Reply := .text "Bad Request" 400

/-- The JSON reply of a request endpoint (app.py 181-189, 265-273). -/
def optionsReply (id : Nat) (name : String) : Py PyVal → Reply
  | .ok v => .json (.dict [(.str "challengeID", .int id), (.str name, v)])
  | .error e => .crash e

/-- The user of a registration request (app.py 153-163). -/
def findOrAddUser (db : Db) (name : String) (newHandle : Bytes) : Py User × Db :=
  match db.userNamed name with
  | some u => (.ok u, db)
  | none => db.addUser name newHandle

/-- `registration_request` (app.py 149-189).  `newHandle` and `newChallenge` are
what `secrets.token_bytes` returns. -/
def registrationRequest (username : Option String) (newHandle newChallenge : Bytes) (now : Int)
    (db : Db) : Reply × Db :=
  match username with
  | none => (badRequest, db)
  | some name =>
    match findOrAddUser db name newHandle with
    | (.error e, db) => (.crash e, db)
    | (.ok u, db) =>
      match db.addChallenge newChallenge now u.id with
      | (.error e, db) => (.crash e, db)
      | (.ok id, db) =>
        (optionsReply id "creationOptions" (do
          let o ← creationBuilder.build
            (some { name := name, id := u.handle, displayName := name }) (some newChallenge)
          jsonify true o.toObj), db)

/-- `authentication_request` (app.py 234-273).  Lines 243-244 are left out: `Query.all` returns a
list, never `None`. -/
def authenticationRequest (username : Option String) (newChallenge : Bytes) (now : Int)
    (db : Db) : Reply × Db :=
  match username with
  | none => (badRequest, db)
  | some name =>
    match db.userNamed name with
    | none => (.text "User not registered" 400, db)
    | some u =>
      let rows := db.credentials.filter fun c => c.userId == u.id
      match db.addChallenge newChallenge now u.id with
      | (.error e, db) => (.crash e, db)
      | (.ok id, db) =>
        (optionsReply id "requestOptions" (do
          let o ← requestBuilder.build (some newChallenge)
            (some { items := rows.map fun c => { id := c.id } })
          jsonify true o.toObj), db)

/-- The form of a response endpoint. -/
structure Form where
  challengeID : Option String
  credential : Option String
  username : Option String

/-- `request.form[key]`. -/
def formField : Option String → Py String
  | none => .error .keyError
  | some s => .ok s

/-- app.py 195-198, 279-282.  A JSON text that is no object makes the parser
raise an `Exception` that the application does not tell from the others. -/
def parseForm (env : Env) (f : Form) : Py (String × Credential × String) := do
  let challengeID ← formField f.challengeID
  let text ← formField f.credential
  let v ← env.jsonLoads text
  let credential ← (match v with
    | .dict d => parsePublicKeyCredential d
    | _ => .error .typeError)
  let username ← formField f.username
  return (challengeID, credential, username)

/-- `type(credential.response) is AuthenticatorAttestationResponse`. -/
def isAttestation : Response → Bool
  | .attestation .. => true
  | .assertion .. => false

/-- What the two response endpoints have in common (app.py 193-219, 277-303):
the credential, the challenge, the user. -/
def readResponse (app : App) (attestation : Bool) (f : Form) (now : Int) (db : Db) :
    Except Reply (Credential × Challenge × User) :=
  match parseForm app.env f with
  | .error e =>
    if e.isException then .error (.text "Could not parse input data" 400) else .error (.crash e)
  | .ok (challengeID, credential, username) =>
    if isAttestation credential.response != attestation then
      .error (.text "Invalid response type" 400)
    else
      match db.challenge (app.rowId challengeID) with
      | none => .error (.text "Could not find challenge matching given id" 400)
      | some ch =>
        match db.userNamed username with
        | none => .error (.text "Invalid username" 400)
        | some u =>
          if now - ch.timestamp > timeout then .error (.text "Timeout" 408)
          else .ok (credential, ch, u)

/-- `except WebAuthnRPError: return (message, 400)`, then success
(app.py 228-231, 312-315). -/
def conclude (message : String) : Py Unit → Reply
  | .ok () => success
  | .error e => if e.isWebAuthn then .text message 400 else .crash e

/-- The arguments of app.py 222-227. -/
def attestationArgs (c : Credential) (ch : Challenge) (u : User) : AttestationArgs where
  credential := c
  user := u.entity
  rp := rp
  expectedChallenge := ch.request
  expectedOrigin := .one origin

/-- The arguments of app.py 306-311. -/
def assertionArgs (c : Credential) (ch : Challenge) (u : User) : AssertionArgs where
  credential := c
  user := some u.entity
  rp := some rp
  expectedChallenge := ch.request
  expectedOrigin := .one origin

/-- `registration_response` (app.py 192-231). -/
def registrationResponse (app : App) (f : Form) (now : Int) (db : Db) : Reply × Db :=
  match readResponse app true f now db with
  | .error r => (r, db)
  | .ok (c, ch, u) =>
    let (r, db) := handleAttestation app.env (registrar app.env) (attestationArgs c ch u) db
    (conclude "Could not handle credential attestation" r, db)

/-- `authentication_response` (app.py 276-315). -/
def authenticationResponse (app : App) (f : Form) (now : Int) (db : Db) : Reply × Db :=
  match readResponse app false f now db with
  | .error r => (r, db)
  | .ok (c, ch, u) =>
    let (r, db) := handleAssertion app.env (registrar app.env) (assertionArgs c ch u) db
    (conclude "Could not handle credential assertion" r, db)

/-! ## Histories -/

/-- A request to the application, with the clock and the random bytes. -/
inductive Event where
  | registrationRequest (username : Option String) (newHandle newChallenge : Bytes) (now : Int)
  | registrationResponse (f : Form) (now : Int)
  | authenticationRequest (username : Option String) (newChallenge : Bytes) (now : Int)
  | authenticationResponse (f : Form) (now : Int)

def step (app : App) : Event → Db → Reply × Db
  | .registrationRequest n h c t, db => registrationRequest n h c t db
  | .registrationResponse f t, db => registrationResponse app f t db
  | .authenticationRequest n c t, db => authenticationRequest n c t db
  | .authenticationResponse f t, db => authenticationResponse app f t db

/-- The database after a history that began with empty tables. -/
def run (app : App) (evs : List Event) : Db :=
  evs.foldl (fun db e => (step app e db).2) {}

/-- The reply to `e` after the history `evs`. -/
def reply (app : App) (evs : List Event) (e : Event) : Reply := (step app e (run app evs)).1

end WebAuthn.Flask
