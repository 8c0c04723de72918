import Verif.Model.FlaskThreads

/-!
# The example application repaired for requests in progress at the same time

Not code of the repository.  Two statements of `Verif/Model/FlaskThreads.lean` are
changed, to see what C63 and C67 miss:

* The counter of a credential (app.py 105-106) is set by an `UPDATE` with the condition
  that the stored counter is absent or smaller.  When no row is changed, the
  registrar returns an error, and the response is refused (app.py 312-314).
* A user (app.py 159-163) is added unless there is one of the name by now, and then read, in
  one transaction.
-/

namespace WebAuthn.Flask

open WebAuthn

/-- The `UPDATE` changes a row. -/
def Db.below (db : Db) (id : Bytes) (n : Int) : Bool :=
  db.credentials.any fun c => c.id == id && match c.count with
    | none => true
    | some m => decide (m < n)

/-- The response is refused. -/
def stale : Reply := .text "Could not handle credential assertion" 400

/-- One statement. -/
def Task.atomicStep : Task → Db → Task × Db
  | .addUser name h k, db =>
    match db.userNamed name with
    | some u => (k (.ok u), db)
    | none => (k (db.addUser name h).1, (db.addUser name h).2)
  | .setCount id n k, db => if db.below id n then (k, db.setCount id n) else (.done stale, db)
  | t, db => t.step db

variable {ι : Type} [DecidableEq ι]

/-- Request `i` has its next statement executed. -/
def Server.atomicStep (s : Server ι) (i : ι) : Server ι where
  tasks := fun j => if j = i then ((s.tasks i).atomicStep s.db).1 else s.tasks j
  db := ((s.tasks i).atomicStep s.db).2

/-- The server after the statements of the requests `reqs` were executed in the order
`sched`, from empty tables. -/
def serveAtomic (app : App) (reqs : ι → Event) (sched : List ι) : Server ι :=
  sched.foldl Server.atomicStep ⟨fun i => task app (reqs i), {}⟩

/-- What request `i` has been answered. -/
def atomicAnswer (app : App) (reqs : ι → Event) (sched : List ι) (i : ι) : Option Reply :=
  match (serveAtomic app reqs sched).tasks i with
  | .done r => some r
  | _ => none

end WebAuthn.Flask
