import Verif.Model.Flask

/-!
# The example application without stale challenges

Not code of the repository.  The application keeps every challenge that it ever made.  Here those
that can no longer be used are deleted before a request is handled, as by
`Challenge.query.filter(timestamp_ms() - Challenge.timestamp_ms > APP_TIMEOUT).delete()`.  Numbers
are not used again (`sqlite_autoincrement`), and the rest is as in app.py.
-/

namespace WebAuthn.Flask

open WebAuthn

/-- The clock when the request is handled. -/
def Event.clock : Event → Int
  | .registrationRequest _ _ _ t | .registrationResponse _ t => t
  | .authenticationRequest _ _ t | .authenticationResponse _ t => t

/-- The tables, and the number of the next challenge. -/
structure Swept where
  db : Db := {}
  next : Nat := 1

/-- Delete what is older than the timeout. -/
def Db.sweep (db : Db) (now : Int) : Db :=
  { db with challenges := db.challenges.filter fun c => decide (now - c.timestamp ≤ timeout) }

/-- Add a challenge and commit (app.py 165-172, 247-254). -/
def sweptChallenge (db : Db) (next : Nat) (request : Bytes) (now : Int) (userId : Nat) :
    Py Nat × Swept :=
  if db.challenges.any fun c => c.request == request then (.error integrityError, ⟨db, next⟩)
  else
    (.ok next, ⟨{ db with challenges := db.challenges ++ [⟨next, request, now, userId⟩] }, next + 1⟩)

/-- `registration_request` (app.py 149-189). -/
def sweptRegistrationRequest (username : Option String) (newHandle newChallenge : Bytes) (now : Int)
    (db : Db) (next : Nat) : Reply × Swept :=
  match username with
  | none => (badRequest, ⟨db, next⟩)
  | some name =>
    match findOrAddUser db name newHandle with
    | (.error e, db) => (.crash e, ⟨db, next⟩)
    | (.ok u, db) =>
      match sweptChallenge db next newChallenge now u.id with
      | (.error e, s) => (.crash e, s)
      | (.ok id, s) =>
        (optionsReply id "creationOptions" (do
          let o ← creationBuilder.build
            (some { name := name, id := u.handle, displayName := name }) (some newChallenge)
          jsonify true o.toObj), s)

/-- `authentication_request` (app.py 234-273). -/
def sweptAuthenticationRequest (username : Option String) (newChallenge : Bytes) (now : Int)
    (db : Db) (next : Nat) : Reply × Swept :=
  match username with
  | none => (badRequest, ⟨db, next⟩)
  | some name =>
    match db.userNamed name with
    | none => (.text "User not registered" 400, ⟨db, next⟩)
    | some u =>
      let rows := db.credentials.filter fun c => c.userId == u.id
      match sweptChallenge db next newChallenge now u.id with
      | (.error e, s) => (.crash e, s)
      | (.ok id, s) =>
        (optionsReply id "requestOptions" (do
          let o ← requestBuilder.build (some newChallenge)
            (some { items := rows.map fun c => { id := c.id } })
          jsonify true o.toObj), s)

def sweptStep (app : App) (e : Event) (s : Swept) : Reply × Swept :=
  let db := s.db.sweep e.clock
  match e with
  | .registrationRequest n h c t => sweptRegistrationRequest n h c t db s.next
  | .authenticationRequest n c t => sweptAuthenticationRequest n c t db s.next
  | .registrationResponse f t =>
    let (r, db) := registrationResponse app f t db
    (r, ⟨db, s.next⟩)
  | .authenticationResponse f t =>
    let (r, db) := authenticationResponse app f t db
    (r, ⟨db, s.next⟩)

def sweptRun (app : App) (evs : List Event) : Swept :=
  evs.foldl (fun s e => (sweptStep app e s).2) {}

def sweptReply (app : App) (evs : List Event) (e : Event) : Reply :=
  (sweptStep app e (sweptRun app evs)).1

end WebAuthn.Flask
