import Verif.Model.FlaskAtomic

/-!
# The example application with statements that fail

A statement of `Verif/Model/FlaskThreads.lean` may end in an `OperationalError` (a lock that
was not released in time, a full disk), before it had an effect or after.  After the commit of
a user or of a challenge, SQLAlchemy reads the row again (app.py 169, 183, 267), so that a
request may fail that has committed; of the other statements it is assumed for safety.  The
session of a request that failed is not used again.

An error of a statement in an endpoint is answered with status 500; in a method of
`RegistrarImpl` (app.py 74-120) it is an exception of the registrar, for which the handler
raises `RegistrationError` (backends.py 208-220, 320-326, 437-447), which the endpoint answers
with status 400 (app.py 228-229, 312-313).
-/

namespace WebAuthn.Flask

open WebAuthn

/-- What happens to a statement. -/
inductive Fault where
  | no
  | before
  | after
  deriving DecidableEq

def operationalError : Exc := .other 1

/-- The answer to a request whose next statement fails.  The first five are statements
of an endpoint, the others of the registrar. -/
def Task.failure : Task → Reply
  | .done r => r
  | .userNamed .. | .challenge .. | .credentialsOf .. | .addUser .. | .addChallenge .. =>
    .crash operationalError
  | .userOfHandle .. | .addCredential .. => .text "Could not handle credential attestation" 400
  | .credential .. | .userOfId .. | .setCount .. => .text "Could not handle credential assertion" 400

/-- One statement, executed by `step`, that may fail. -/
def Task.faultyStep (step : Task → Db → Task × Db) : Fault → Task → Db → Task × Db
  | _, .done r, db => (.done r, db)
  | .no, t, db => step t db
  | .before, t, db => (.done t.failure, db)
  | .after, t, db => (.done t.failure, (step t db).2)

variable {ι : Type} [DecidableEq ι]

/-- Request `p.1` has its next statement executed, with the fault `p.2`. -/
def Server.faultyStep (step : Task → Db → Task × Db) (s : Server ι) (p : ι × Fault) : Server ι where
  tasks := fun j => if j = p.1 then ((s.tasks p.1).faultyStep step p.2 s.db).1 else s.tasks j
  db := ((s.tasks p.1).faultyStep step p.2 s.db).2

/-- The server after the statements of the requests `reqs` were executed in the order
`sched`, with the faults in it, from empty tables.  `step` is `Task.step` for the
application, and `Task.atomicStep` for the one of `Verif/Model/FlaskAtomic.lean`. -/
def serveFaulty (step : Task → Db → Task × Db) (app : App) (reqs : ι → Event)
    (sched : List (ι × Fault)) : Server ι :=
  sched.foldl (Server.faultyStep step) ⟨fun i => task app (reqs i), {}⟩

/-- What request `i` has been answered. -/
def faultyAnswer (step : Task → Db → Task × Db) (app : App) (reqs : ι → Event)
    (sched : List (ι × Fault)) (i : ι) : Option Reply :=
  match (serveFaulty step app reqs sched).tasks i with
  | .done r => some r
  | _ => none

end WebAuthn.Flask
