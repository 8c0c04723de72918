import Verif.Model.FlaskOwned
import Verif.Model.Choosy

/-!
# Checks in front of the example application

Not code of the repository.  A check sees the requests that were served before, their replies,
the tables and the request, and may refuse the request; the application (app.py) is as it is
behind them.  The repairs of C20, C51, C66, C71, C72 and C82 are such checks, and the length of
credential ids (server-configuration.rst 42-43) is one.  They show that the repairs go together.
-/

namespace WebAuthn.Flask

/-- The requests that were served, with their replies. -/
abbrev ServedLog := List (Event × Reply)

/-- A check: the message of a refusal, or nothing. -/
abbrev Guard := ServedLog → Db → Event → Option String

/-- The first refusal of a list of checks. -/
def refusedBy (guards : List Guard) (log : ServedLog) (db : Db) (e : Event) : Option String :=
  guards.findSome? fun g => g log db e

def guardedStep (app : App) (guards : List Guard) (e : Event) (s : ServedLog × Db) : Reply × ServedLog × Db :=
  match refusedBy guards s.1 s.2 e with
  | some message => (.text message 400, s)
  | none => ((step app e s.2).1, s.1 ++ [(e, (step app e s.2).1)], (step app e s.2).2)

def guardedRun (app : App) (guards : List Guard) (evs : List Event) : ServedLog × Db :=
  evs.foldl (fun s e => (guardedStep app guards e s).2) ([], {})

def guardedReply (app : App) (guards : List Guard) (evs : List Event) (e : Event) : Reply :=
  (guardedStep app guards e (guardedRun app guards evs)).1

/-! ## What the checks look at -/

/-- The number of the challenge, the credential and the user name in a form. -/
def submission (app : App) (f : Form) : Option (Nat × Credential × String) :=
  match parseForm app.env f with
  | .ok (cid, c, name) => (app.rowId cid).map fun n => (n, c, name)
  | .error _ => none

/-- The form of a response. -/
def formIn : Event → Option Form
  | .registrationResponse f _ | .authenticationResponse f _ => some f
  | _ => none

def Reply.succeeded : Reply → Bool
  | .text m s => m == "Success" && s == 200
  | _ => false

/-- The attested credential data and the counter of a registration. -/
def attestedData (env : Env) (c : Credential) : Option (AttestedCredentialData × Nat) :=
  match c.response with
  | .attestation _ ob =>
    match parseAttestationObject env ob with
    | .ok (o, _) => o.authData.attested.map fun acd => (acd, o.authData.signCount)
    | .error _ => none
  | .assertion .. => none

/-- The counter of a login. -/
def assertedCount (env : Env) (c : Credential) : Option Nat :=
  match c.response with
  | .assertion _ raw _ _ =>
    match parseAuthenticatorData env raw with
    | .ok ad => some ad.signCount
    | .error _ => none
  | .attestation .. => none

/-! ## The checks -/

/-- C51: no response with the challenge has succeeded. -/
def unused (app : App) : Guard := fun log _ e =>
  ((formIn e).bind (submission app)).bind fun (n, _, _) =>
    if log.any fun (e', r) => r.succeeded && ((formIn e').bind (submission app)).any fun s => s.1 == n
    then some "Challenge already used" else none

/-- C51: the challenge is the user's. -/
def ownChallenge (app : App) : Guard := fun _ db e =>
  ((formIn e).bind (submission app)).bind fun (n, _, name) =>
    match db.challenge (some n), db.userNamed name with
    | some ch, some u => if ch.userId = u.id then none else some "Challenge of another user"
    | _, _ => none

/-- C66: the user has no credential. -/
def unowned (app : App) : Guard := fun _ db e =>
  if taken app e db then some "User already registered" else none

/-- A check of registrations. -/
def registering (app : App) (good : Credential → AttestedCredentialData → Bool) (message : String) :
    Guard := fun _ _ e =>
  match e with
  | .registrationResponse f _ =>
    (submission app f).bind fun (_, c, _) =>
      (attestedData app.env c).bind fun (acd, _) => if good c acd then none else some message
  | _ => none

/-- C20: the credential id is the attested one. -/
def attestedId (app : App) : Guard :=
  registering app (fun c acd => acd.credentialId == c.rawId) "Credential id not attested"

/-- C71, C72: the key is for ES256, and a credential key of WebAuthn. -/
def goodKey (app : App) : Guard :=
  registering app (fun _ acd => acd.credentialPublicKey.all fun k => algIn [.ES256] k && webAuthnKey k)
    "Invalid key"

/-- server-configuration.rst 42-43: credential ids have at least 16 bytes. -/
def longId (app : App) : Guard :=
  registering app (fun c _ => 16 ≤ c.rawId.length) "Credential id too short"

/-- C82: the counter is greater than that of the registration of the credential. -/
def aboveInitial (app : App) : Guard := fun log _ e =>
  match e with
  | .authenticationResponse f _ =>
    (submission app f).bind fun (_, c, _) => (assertedCount app.env c).bind fun k =>
      if log.any fun (e', r) => match e' with
        | .registrationResponse f' _ => r.succeeded && (submission app f').any fun (_, c', _) =>
            c'.rawId == c.rawId && (attestedData app.env c').any fun (_, m) => m != 0 && k ≤ m
        | _ => false
      then some "Counter below that of the registration" else none
  | _ => none

def allGuards (app : App) : List Guard :=
  [unused app, ownChallenge app, unowned app, attestedId app, goodKey app, longId app, aboveInitial app]

end WebAuthn.Flask
