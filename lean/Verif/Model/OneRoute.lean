import Verif.Model.Flask

/-!
# The example application with one route

Not code of the repository.  "You can use the same route to handle all the client requests and
responses" (server-configuration.rst 15-16).  The four functions (app.py 129-315) are called from one:

    def everything():
        if 'credential' in request.form:
            try:
                challengeID = request.form['challengeID']
                credential = parse_public_key_credential(json.loads(request.form['credential']))
                username = request.form['username']
            except Exception:
                return ('Could not parse input data', 400)
            if type(credential.response) is AuthenticatorAttestationResponse:
                return registration_response()
            return authentication_response()
        if request.form.get('ceremony') == 'registration':
            return registration_request()
        return authentication_request()
-/

namespace WebAuthn.Flask

/-- A request to the one route, with the clock and the random bytes. -/
structure Ask where
  ceremony : Option String
  form : Form
  newHandle : Bytes
  newChallenge : Bytes
  now : Int

/-- The one route. -/
def oneStep (app : App) (a : Ask) (db : Db) : Reply × Db :=
  match a.form.credential with
  | some _ =>
    match parseForm app.env a.form with
    | .error e => (if e.isException then .text "Could not parse input data" 400 else .crash e, db)
    | .ok (_, c, _) =>
      if isAttestation c.response then registrationResponse app a.form a.now db
      else authenticationResponse app a.form a.now db
  | none =>
    if a.ceremony = some "registration" then
      registrationRequest a.form.username a.newHandle a.newChallenge a.now db
    else authenticationRequest a.form.username a.newChallenge a.now db

def oneRun (app : App) (asks : List Ask) : Db := asks.foldl (fun db a => (oneStep app a db).2) {}

def oneReply (app : App) (asks : List Ask) (a : Ask) : Reply := (oneStep app a (oneRun app asks)).1

end WebAuthn.Flask
