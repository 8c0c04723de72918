import Verif.Model.FlaskFaults

/-!
# The example application, killed at any time

As `Verif/Model/FlaskThreads.lean`: requests are in progress at the same time, and their statements are
executed one after the other.  When the last one is executed the reply is sent, which is a step of its own.  The
process (app.py 325-331) may be killed between any two steps, and is started again at once; what was committed is in the
tables, as `Verif/Model/Lifecycle.lean` has it, and the requests in progress are lost.
-/

namespace WebAuthn.Flask

open WebAuthn

inductive Tick (ι : Type) where
  | statement (i : ι)
  | send (i : ι)
  | kill

/-- The server, and which requests have begun, were lost, were answered. -/
structure Process (ι : Type) where
  server : Server ι
  begun : ι → Bool := fun _ => false
  lost : ι → Bool := fun _ => false
  sent : ι → Bool := fun _ => false

variable {ι : Type} [DecidableEq ι]

/-- `step` is `Task.step` for the application. -/
def Process.next (step : Task → Db → Task × Db) (s : Process ι) : Tick ι → Process ι
  | .statement i =>
    if s.lost i then s
    else { s with server := s.server.faultyStep step (i, .no), begun := fun j => j == i || s.begun j }
  | .send i =>
    match s.server.tasks i with
    | .done _ => if s.lost i then s else { s with sent := fun j => j == i || s.sent j }
    | _ => s
  | .kill => { s with lost := fun j => s.lost j || s.begun j && !s.sent j }

def processes (step : Task → Db → Task × Db) (app : App) (reqs : ι → Event) (ticks : List (Tick ι)) : Process ι :=
  ticks.foldl (Process.next step) { server := ⟨fun i => task app (reqs i), {}⟩ }

/-- The reply to the request `i` that the process has come to. -/
def outcome (step : Task → Db → Task × Db) (app : App) (reqs : ι → Event) (ticks : List (Tick ι)) (i : ι) : Option Reply :=
  match (processes step app reqs ticks).server.tasks i with
  | .done r => some r
  | _ => none

/-- The reply that was sent. -/
def received (step : Task → Db → Task × Db) (app : App) (reqs : ι → Event) (ticks : List (Tick ι)) (i : ι) : Option Reply :=
  if (processes step app reqs ticks).sent i then outcome step app reqs ticks i else none

/-- The tables. -/
def tablesAfter (step : Task → Db → Task × Db) (app : App) (reqs : ι → Event) (ticks : List (Tick ι)) : Db :=
  (processes step app reqs ticks).server.db

end WebAuthn.Flask
