import Verif.Model.Flask

/-!
# The example application with backups of its database

Not code of the repository.  The tables of the application (app.py 36-61) are in one SQLite file (app.py 27-34).
Somebody who keeps copies of the file, one from before the first request and one from after each
step, may put one of them back between two requests.  The application (app.py) is as it is.
-/

namespace WebAuthn.Flask

/-- A request, or the return to the copy number `n`: the tables after the first `n` steps. -/
inductive Step where
  | request (e : Event)
  | restore (n : Nat)

/-- The copies, the latest last; a copy that is not there is the latest one.  `next` is what a
request does, `back` what is done when a copy has been put back. -/
def copies {σ : Type} (next : Nat → Event → σ → σ) (back : σ → σ) (init : σ) (steps : List Step) : List σ :=
  steps.foldl (fun l s => l ++ [match s with
    | .request e => next (l.length - 1) e (l.getLastD init)
    | .restore n => back (l.getD n (l.getLastD init))]) [init]

def latest {σ : Type} (next : Nat → Event → σ → σ) (back : σ → σ) (init : σ) (steps : List Step) : σ :=
  (copies next back init steps).getLastD init

/-- The tables. -/
def restoredRun (app : App) : List Step → Db := latest (fun _ e db => (step app e db).2) id {}

def restoredReply (app : App) (steps : List Step) (e : Event) : Reply := (step app e (restoredRun app steps)).1

/-! ## Challenges in a copy are no longer taken

When a copy has been put back, the number of the next challenge is noted outside the tables, and
responses with a smaller number are refused. -/

/-- The number of the challenge in a response. -/
def numberIn (app : App) : Event → Option Nat
  | .registrationResponse f _ | .authenticationResponse f _ =>
    match parseForm app.env f with
    | .ok (cid, _, _) => app.rowId cid
    | .error _ => none
  | _ => none

def markedStep (app : App) (e : Event) (s : Db × Nat) : Reply × Db × Nat :=
  if (numberIn app e).any (· < s.2) then (.text "Challenge from before the restoration" 400, s)
  else ((step app e s.1).1, (step app e s.1).2, s.2)

/-- The tables and the number that is noted. -/
def markedRun (app : App) : List Step → Db × Nat :=
  latest (fun _ e s => (markedStep app e s).2) (fun s => (s.1, s.1.challenges.length + 1)) ({}, 0)

def markedReply (app : App) (steps : List Step) (e : Event) : Reply := (markedStep app e (markedRun app steps)).1

end WebAuthn.Flask
