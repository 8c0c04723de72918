import Verif.Model.Flask
import Verif.Model.Interaction

/-!
# The example application with requests in progress at the same time

`app.run` (app.py 328) serves every request in a thread of its own, with a session of its
own.  A request is a program that talks to the database; one statement (a
`SELECT`, or the `INSERT` or `UPDATE` of a commit) is one atomic step.  The driver
of SQLite begins a transaction only before an `INSERT` or an `UPDATE`, so that a
`SELECT` sees what has been committed by then.  A thread that is never continued
is a request that was cut off.

Not steps: loading again a row that the session has loaded before (rows of users and
challenges never change, and of a credential only the counter, which
`register_credential_assertion` does not read).  The `UPDATE` of a counter is always
executed; SQLAlchemy may leave it out when the row it has loaded has the counter
already.  Statements that fail are in `Verif/Model/FlaskFaults.lean`.
-/

namespace WebAuthn.Flask

open WebAuthn

/-- What a request does next. -/
inductive Task where
  | done (r : Reply)
  | userNamed (name : String) (k : Option User → Task)
  | userOfHandle (handle : Bytes) (k : Option User → Task)
  | userOfId (id : Nat) (k : Option User → Task)
  | credential (id : Bytes) (k : Option CredentialRow → Task)
  | credentialsOf (userId : Nat) (k : List CredentialRow → Task)
  | challenge (id : Option Nat) (k : Option Challenge → Task)
  | addUser (name : String) (handle : Bytes) (k : Py User → Task)
  | addChallenge (request : Bytes) (now : Int) (userId : Nat) (k : Py Nat → Task)
  | addCredential (row : CredentialRow) (k : Py Unit → Task)
  | setCount (id : Bytes) (n : Int) (k : Task)

/-- Add a credential and commit (app.py 90-97). -/
def Db.addCredential (db : Db) (row : CredentialRow) : Py Unit × Db :=
  if db.credentials.any fun c => c.id == row.id then (.error integrityError, db)
  else (.ok (), { db with credentials := db.credentials ++ [row] })

/-- Change the counter of a credential and commit (app.py 105-106). -/
def Db.setCount (db : Db) (id : Bytes) (n : Int) : Db :=
  { db with credentials := db.credentials.map (Flask.setCount id n) }

/-- One statement. -/
def Task.step : Task → Db → Task × Db
  | .done r, db => (.done r, db)
  | .userNamed name k, db => (k (db.userNamed name), db)
  | .userOfHandle h k, db => (k (db.userOfHandle h), db)
  | .userOfId n k, db => (k (db.userOfId n), db)
  | .credential id k, db => (k (db.credential id), db)
  | .credentialsOf n k, db => (k (db.credentials.filter fun c => c.userId == n), db)
  | .challenge n k, db => (k (db.challenge n), db)
  | .addUser name h k, db => (k (db.addUser name h).1, (db.addUser name h).2)
  | .addChallenge ch t n k, db => (k (db.addChallenge ch t n).1, (db.addChallenge ch t n).2)
  | .addCredential row k, db => (k (db.addCredential row).1, (db.addCredential row).2)
  | .setCount id n k, db => (k, db.setCount id n)

/-- To the end, with nobody else about. -/
def Task.run : Task → Db → Reply × Db
  | .done r, db => (r, db)
  | .userNamed name k, db => (k (db.userNamed name)).run db
  | .userOfHandle h k, db => (k (db.userOfHandle h)).run db
  | .userOfId n k, db => (k (db.userOfId n)).run db
  | .credential id k, db => (k (db.credential id)).run db
  | .credentialsOf n k, db => (k (db.credentials.filter fun c => c.userId == n)).run db
  | .challenge n k, db => (k (db.challenge n)).run db
  | .addUser name h k, db => (k (db.addUser name h).1).run (db.addUser name h).2
  | .addChallenge ch t n k, db => (k (db.addChallenge ch t n).1).run (db.addChallenge ch t n).2
  | .addCredential row k, db => (k (db.addCredential row).1).run (db.addCredential row).2
  | .setCount id n k, db => k.run (db.setCount id n)

/-! ## The endpoints -/

/-- app.py 165-189. -/
def creationTask (name : String) (newChallenge : Bytes) (now : Int) (u : User) : Task :=
  .addChallenge newChallenge now u.id fun
    | .error e => .done (.crash e)
    | .ok id => .done (optionsReply id "creationOptions" (do
        let o ← creationBuilder.build
          (some { name := name, id := u.handle, displayName := name }) (some newChallenge)
        jsonify true o.toObj))

/-- `registration_request` (app.py 149-189). -/
def registrationRequestTask (username : Option String) (newHandle newChallenge : Bytes)
    (now : Int) : Task :=
  match username with
  | none => .done badRequest
  | some name => .userNamed name fun
    | some u => creationTask name newChallenge now u
    | none => .addUser name newHandle fun
      | .error e => .done (.crash e)
      | .ok u => creationTask name newChallenge now u

/-- `authentication_request` (app.py 234-273). -/
def authenticationRequestTask (username : Option String) (newChallenge : Bytes) (now : Int) : Task :=
  match username with
  | none => .done badRequest
  | some name => .userNamed name fun
    | none => .done (.text "User not registered" 400)
    | some u => .credentialsOf u.id fun rows => .addChallenge newChallenge now u.id fun
      | .error e => .done (.crash e)
      | .ok id => .done (optionsReply id "requestOptions" (do
          let o ← requestBuilder.build (some newChallenge)
            (some { items := rows.map fun c => { id := c.id } })
          jsonify true o.toObj))

/-- The first part of a response endpoint (app.py 193-219, 277-303). -/
def readTask (app : App) (attestation : Bool) (f : Form) (now : Int)
    (k : Credential → Challenge → User → Task) : Task :=
  match parseForm app.env f with
  | .error e =>
    if e.isException then .done (.text "Could not parse input data" 400) else .done (.crash e)
  | .ok (challengeID, credential, username) =>
    if isAttestation credential.response != attestation then
      .done (.text "Invalid response type" 400)
    else .challenge (app.rowId challengeID) fun
      | none => .done (.text "Could not find challenge matching given id" 400)
      | some ch => .userNamed username fun
        | none => .done (.text "Invalid username" 400)
        | some u =>
          if now - ch.timestamp > timeout then .done (.text "Timeout" 408) else k credential ch u

/-- The calls of a handler, with `RegistrarImpl` (app.py 74-120) and the end of the
endpoint (app.py 228-231, 312-315). -/
def handlerTask (env : Env) (message : String) : Prog → Task
  | .done r => .done (conclude message r)
  | .read id k => .credential id fun
    | none => handlerTask env message (k (.ok none))
    | some c =>
      match parseCoseKeyBytes env c.key with
      | .error e => handlerTask env message (k (.error e))
      | .ok key => .userOfId c.userId fun
        | none => handlerTask env message (k (.error .attributeError))
        | some u => handlerTask env message (k (.ok (some ⟨key, c.count, u.entity, none⟩)))
  | .writeAttestation r k =>
    match r.att.authData.attested with
    | none => handlerTask env message (k (.error .assertionError))
    | some acd => .userOfHandle r.user.id fun
      | none => handlerTask env message (k (.ok (some "No user found")))
      | some u =>
        match acd.credentialPublicKey with
        | none => handlerTask env message (k (raise .unimplemented))
        | some cpk =>
          match coseKey env cpk with
          | .error e => handlerTask env message (k (.error e))
          | .ok key => .addCredential ⟨r.credential.rawId, none, key, u.id⟩ fun
            | .error e => handlerTask env message (k (.error e))
            | .ok () => handlerTask env message (k (.ok none))
  | .writeAssertion r k => .credential r.credential.rawId fun
    | none => handlerTask env message (k (.error .attributeError))
    | some _ => .setCount r.credential.rawId r.authData.signCount
        (handlerTask env message (k (.ok none)))

/-- A request. -/
def task (app : App) : Event → Task
  | .registrationRequest n h c t => registrationRequestTask n h c t
  | .authenticationRequest n c t => authenticationRequestTask n c t
  | .registrationResponse f t => readTask app true f t fun c ch u =>
      handlerTask app.env "Could not handle credential attestation"
        (attestationProg app.env (attestationArgs c ch u))
  | .authenticationResponse f t => readTask app false f t fun c ch u =>
      handlerTask app.env "Could not handle credential assertion"
        (assertionProg app.env (assertionArgs c ch u))

/-! ## The server -/

variable {ι : Type} [DecidableEq ι]

/-- The requests in progress and the database. -/
structure Server (ι : Type) where
  tasks : ι → Task
  db : Db

/-- Request `i` has its next statement executed. -/
def Server.step (s : Server ι) (i : ι) : Server ι where
  tasks := fun j => if j = i then ((s.tasks i).step s.db).1 else s.tasks j
  db := ((s.tasks i).step s.db).2

/-- The server after the statements of the requests `reqs` were executed in the order
`sched`, from empty tables. -/
def serveAll (app : App) (reqs : ι → Event) (sched : List ι) : Server ι :=
  sched.foldl Server.step ⟨fun i => task app (reqs i), {}⟩

/-- What request `i` has been answered. -/
def answer (app : App) (reqs : ι → Event) (sched : List ι) (i : ι) : Option Reply :=
  match (serveAll app reqs sched).tasks i with
  | .done r => some r
  | _ => none

end WebAuthn.Flask
