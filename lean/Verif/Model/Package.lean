import Verif.Model.Guards
import Verif.Model.Whole

/-!
# The example application on any package

Not code of the repository: the example application (app.py), behind checks as in
`Verif/Model/Guards.lean`, with the two handlers of the backend as parameters.  It shows what the
application relies on, and what the repaired package (`Verif/Model/Whole.lean`) gives it.
-/

namespace WebAuthn.Flask

open WebAuthn

/-- The two handlers of `CredentialsBackend` (backends.py 75-230, 232-457). -/
structure Package where
  attestation : {σ : Type} → Registrar σ → AttestationArgs → σ → Py Unit × σ
  assertion : {σ : Type} → Registrar σ → AssertionArgs → σ → Py Unit × σ

/-- The package as it is. -/
def codePackage (env : Env) : Package := ⟨handleAttestation env, handleAssertion env⟩

/-- The package with all repairs. -/
def repairedPackage (env : Env) (p : Whole.Policy) : Package :=
  ⟨Whole.handleAttestation env p, Whole.handleAssertion env p⟩

/-- What the application asks for (app.py 130-142): ES256, and no extensions. -/
def appPolicy : Whole.Policy := { algs := [.ES256] }

/-- app.py 149-315, with the handlers of `pkg`. -/
def packageStep (pkg : Package) (app : App) : Event → Db → Reply × Db
  | .registrationRequest n h c t, db => registrationRequest n h c t db
  | .registrationResponse f t, db =>
    match readResponse app true f t db with
    | .error r => (r, db)
    | .ok (c, ch, u) =>
      let (r, db) := pkg.attestation (registrar app.env) (attestationArgs c ch u) db
      (conclude "Could not handle credential attestation" r, db)
  | .authenticationRequest n c t, db => authenticationRequest n c t db
  | .authenticationResponse f t, db =>
    match readResponse app false f t db with
    | .error r => (r, db)
    | .ok (c, ch, u) =>
      let (r, db) := pkg.assertion (registrar app.env) (assertionArgs c ch u) db
      (conclude "Could not handle credential assertion" r, db)

/-- The package that is installed, which may be exchanged between requests: it may depend on all that
was served before. -/
abbrev Versions := ServedLog → Package

/-- The same behind checks. -/
def packageServe (pkgs : Versions) (app : App) (guards : List Guard) (e : Event) (s : ServedLog × Db) :
    Reply × ServedLog × Db :=
  match refusedBy guards s.1 s.2 e with
  | some message => (.text message 400, s)
  | none =>
    let (r, db) := packageStep (pkgs s.1) app e s.2
    (r, s.1 ++ [(e, r)], db)

def packageRun (pkgs : Versions) (app : App) (guards : List Guard) (evs : List Event) : ServedLog × Db :=
  evs.foldl (fun s e => (packageServe pkgs app guards e s).2) ([], {})

def packageReply (pkgs : Versions) (app : App) (guards : List Guard) (evs : List Event) (e : Event) :
    Reply :=
  (packageServe pkgs app guards e (packageRun pkgs app guards evs)).1

/-- The checks that are left to the application if the package has its repairs. -/
def appGuards (app : App) : List Guard :=
  [unused app, ownChallenge app, unowned app, longId app, aboveInitial app]

end WebAuthn.Flask
