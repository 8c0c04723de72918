import Verif.Model.Flask

/-!
# The user and the challenge in one transaction

Not code of the repository.  `registration_request` of the example commits the row of the user (app.py 163) before that of
the challenge (app.py 172).  Here line 163 is `db.session.flush()`, so that both rows are committed by line 172, or, if it
raises, neither.  It shows that C113 can be met by a small change.
-/

namespace WebAuthn.Flask

/-- `registration_request` (app.py 149-189) with it. -/
def togetherRequest (username : Option String) (newHandle newChallenge : Bytes) (now : Int) (db : Db) : Reply × Db :=
  match username with
  | none => (badRequest, db)
  | some name =>
    match findOrAddUser db name newHandle with
    | (.error e, _) => (.crash e, db)
    | (.ok u, db') =>
      match db'.addChallenge newChallenge now u.id with
      | (.error e, _) => (.crash e, db)
      | (.ok id, db') =>
        (optionsReply id "creationOptions" (do
          let o ← creationBuilder.build
            (some { name := name, id := u.handle, displayName := name }) (some newChallenge)
          jsonify true o.toObj), db')

def togetherStep (app : App) (e : Event) (db : Db) : Reply × Db :=
  match e with
  | .registrationRequest name h ch t => togetherRequest name h ch t db
  | e => step app e db

def togetherRun (app : App) (evs : List Event) : Db :=
  evs.foldl (fun db e => (togetherStep app e db).2) {}

def togetherReply (app : App) (evs : List Event) (e : Event) : Reply :=
  (togetherStep app e (togetherRun app evs)).1

end WebAuthn.Flask
