import Verif.Model.Flask

/-!
# The example application without telling who has an account

Not code of the repository.  It shows that C77 can be met, by four changes:

* A request that begins a login does not look at the accounts.  Its options have no list of
  credentials, so the authenticator has to know which of its credentials to use, and its
  challenge has no user (`0` in the model, `NULL` in the table).
* Every response that does not succeed is answered alike.
* A registration must have a challenge of its user.  Otherwise a visitor sees whether a
  registration with a challenge of a login succeeds.
* A request that begins a registration is left as it is: it hides whether there was an account
  before.
-/

namespace WebAuthn.Flask

/-- `authentication_request` (app.py 234-273) for any name. -/
def discreetRequest (username : Option String) (newChallenge : Bytes) (now : Int) (db : Db) :
    Reply × Db :=
  match username with
  | none => (badRequest, db)
  | some _ =>
    match db.addChallenge newChallenge now 0 with
    | (.error e, db) => (.crash e, db)
    | (.ok id, db) =>
      (optionsReply id "requestOptions" (do
        let o ← requestBuilder.build (some newChallenge) none
        jsonify true o.toObj), db)

/-- The one reply to responses that do not succeed. -/
def refusal : Reply := .text "Refused" 400

def discreetly : Reply × Db → Reply × Db
  | (.text "Success" 200, db) => (success, db)
  | (_, db) => (refusal, db)

def discreetStep (app : App) : Event → Db → Reply × Db
  | .registrationRequest n h c t, db => registrationRequest n h c t db
  | .registrationResponse f t, db =>
    match readResponse app true f t db with
    | .error _ => (refusal, db)
    | .ok (_, ch, u) =>
      if ch.userId = u.id then discreetly (registrationResponse app f t db) else (refusal, db)
  | .authenticationRequest n c t, db => discreetRequest n c t db
  | .authenticationResponse f t, db => discreetly (authenticationResponse app f t db)

/-- The database after further requests. -/
def discreetRun (app : App) : List Event → Db → Db
  | [], db => db
  | e :: evs, db => discreetRun app evs (discreetStep app e db).2

/-- The replies to further requests. -/
def discreetReplies (app : App) : List Event → Db → List Reply
  | [], _ => []
  | e :: evs, db =>
    (discreetStep app e db).1 :: discreetReplies app evs (discreetStep app e db).2

end WebAuthn.Flask
