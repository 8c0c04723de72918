import Verif.Model.Flask

/-!
# The example application, accounts of which are deleted

Not code of the repository.  The application has no way to delete an account, but the operator can
delete the row of the user (app.py 36-48) between two requests, alone or with the rows that refer to
it; SQLite does not check foreign keys unless told to.  The numbers of users and challenges are keys
of type `Integer` (app.py 37, 58), for which SQLite takes one more than the greatest in the table.
Where nothing is deleted that is the number of rows and one more, as in `Verif/Model/Flask.lean`; here
it is not.
-/

namespace WebAuthn.Flask

/-- The key of a new row. -/
def nextKey (keys : List Nat) : Nat := keys.foldr max 0 + 1

/-- `Db.addUser`, with the key that SQLite takes. -/
def Db.insertUser (db : Db) (name : String) (handle : Bytes) : Py User × Db :=
  if db.users.any fun u => u.username == name || u.handle == handle then
    (.error integrityError, db)
  else
    let u : User := ⟨nextKey (db.users.map User.id), name, handle⟩
    (.ok u, { db with users := db.users ++ [u] })

/-- `Db.addChallenge`, with the key that SQLite takes. -/
def Db.insertChallenge (db : Db) (request : Bytes) (now : Int) (userId : Nat) : Py Nat × Db :=
  if db.challenges.any fun c => c.request == request then (.error integrityError, db)
  else
    let id := nextKey (db.challenges.map Challenge.id)
    (.ok id, { db with challenges := db.challenges ++ [⟨id, request, now, userId⟩] })

/-- `findOrAddUser` (app.py 153-163). -/
def findOrInsertUser (db : Db) (name : String) (newHandle : Bytes) : Py User × Db :=
  match db.userNamed name with
  | some u => (.ok u, db)
  | none => db.insertUser name newHandle

/-- The application (app.py 149-319): `step`, but for the keys. -/
def keyedStep (app : App) : Event → Db → Reply × Db
  | .registrationRequest username newHandle newChallenge now, db =>
    match username with
    | none => (badRequest, db)
    | some name =>
      match findOrInsertUser db name newHandle with
      | (.error e, db) => (.crash e, db)
      | (.ok u, db) =>
        match db.insertChallenge newChallenge now u.id with
        | (.error e, db) => (.crash e, db)
        | (.ok id, db) =>
          (optionsReply id "creationOptions" (do
            let o ← creationBuilder.build
              (some { name := name, id := u.handle, displayName := name }) (some newChallenge)
            jsonify true o.toObj), db)
  | .authenticationRequest username newChallenge now, db =>
    match username with
    | none => (badRequest, db)
    | some name =>
      match db.userNamed name with
      | none => (.text "User not registered" 400, db)
      | some u =>
        let rows := db.credentials.filter fun c => c.userId == u.id
        match db.insertChallenge newChallenge now u.id with
        | (.error e, db) => (.crash e, db)
        | (.ok id, db) =>
          (optionsReply id "requestOptions" (do
            let o ← requestBuilder.build (some newChallenge)
              (some { items := rows.map fun c => { id := c.id } })
            jsonify true o.toObj), db)
  | .registrationResponse f t, db => registrationResponse app f t db
  | .authenticationResponse f t, db => authenticationResponse app f t db

/-- A request, or the deletion of the account of the user `name`. -/
inductive AccountOp where
  | request (e : Event)
  | delete (name : String)

/-- `DELETE FROM user WHERE username = …`. -/
def dropUser (name : String) (db : Db) : Db := { db with users := db.users.filter fun u => u.username != name }

/-- Also the credentials and challenges of the user are deleted. -/
def dropAccount (name : String) (db : Db) : Db :=
  match db.userNamed name with
  | none => db
  | some u => {
      users := db.users.filter fun v => v.username != name
      credentials := db.credentials.filter fun c => c.userId != u.id
      challenges := db.challenges.filter fun c => c.userId != u.id }

def keyedRun (app : App) (drop : String → Db → Db) (ops : List AccountOp) : Db :=
  ops.foldl (fun db => fun
    | .request e => (keyedStep app e db).2
    | .delete name => drop name db) {}

def keyedReply (app : App) (drop : String → Db → Db) (ops : List AccountOp) (e : Event) : Reply :=
  (keyedStep app e (keyedRun app drop ops)).1

end WebAuthn.Flask
