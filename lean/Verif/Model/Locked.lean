import Verif.Model.Guards
import Verif.Model.FlaskThreads

/-!
# The example application behind a lock

Not code of the repository.  Requests are served in threads of their own (app.py 328) and
overlap, as in `Verif/Model/FlaskThreads.lean`, but a request first takes a lock, which it gives
back when it has been answered; others wait.  While it has the lock the checks of
`Verif/Model/Guards.lean` look at it, and its statements are in one transaction, which is
committed when it is answered.

At any moment a request may be cut off: its thread is killed, a statement fails, its client is
gone.  Then the transaction is rolled back, and the lock is given back.  That a request has been
answered means that its transaction is committed and its reply is known; it does not matter
whether the reply arrives.
-/

namespace WebAuthn.Flask

variable {ι : Type} [DecidableEq ι]

/-- A request waits for the lock, is being served, has been answered or was cut off. -/
inductive Phase where
  | waiting
  | serving (t : Task)
  | answered (r : Reply)
  | lost

structure LockedServer (ι : Type) where
  phases : ι → Phase
  /-- The request that has the lock. -/
  holder : Option ι
  /-- The requests that were served and their replies, for the checks. -/
  log : ServedLog
  /-- The tables as the request that has the lock sees them. -/
  db : Db
  /-- The tables as they were before its transaction. -/
  saved : Db

/-- What happens next: the request `i` goes on, or is cut off. -/
inductive Action (ι : Type) where
  | go (i : ι)
  | cut (i : ι)

def LockedServer.put (s : LockedServer ι) (i : ι) (p : Phase) : LockedServer ι :=
  { s with phases := fun j => if j = i then p else s.phases j }

/-- Request `i` goes on: it takes the lock if that is free and is looked at by the checks; or has
its next statement executed; or is answered and gives back the lock. -/
def LockedServer.go (app : App) (guards : List Guard) (reqs : ι → Event) (s : LockedServer ι) (i : ι) :
    LockedServer ι :=
  match s.phases i with
  | .waiting =>
    match s.holder with
    | some _ => s
    | none =>
      match refusedBy guards s.log s.db (reqs i) with
      | some message => s.put i (.answered (.text message 400))
      | none => { s.put i (.serving (task app (reqs i))) with holder := some i, saved := s.db }
  | .serving (.done r) =>
    { s.put i (.answered r) with holder := none, log := s.log ++ [(reqs i, r)] }
  | .serving t => { s.put i (.serving (t.step s.db).1) with db := (t.step s.db).2 }
  | .answered _ => s
  | .lost => s

/-- Request `i` is cut off. -/
def LockedServer.cut (s : LockedServer ι) (i : ι) : LockedServer ι :=
  match s.phases i with
  | .waiting => s.put i .lost
  | .serving _ => { s.put i .lost with holder := none, db := s.saved }
  | .answered _ => s
  | .lost => s

def LockedServer.act (app : App) (guards : List Guard) (reqs : ι → Event) (s : LockedServer ι) :
    Action ι → LockedServer ι
  | .go i => s.go app guards reqs i
  | .cut i => s.cut i

/-- The server after all this happened to the requests `reqs`, from empty tables. -/
def serveLocked (app : App) (guards : List Guard) (reqs : ι → Event) (sched : List (Action ι)) :
    LockedServer ι :=
  sched.foldl (LockedServer.act app guards reqs) ⟨fun _ => .waiting, none, [], {}, {}⟩

/-- What request `i` has been answered. -/
def lockedAnswer (app : App) (guards : List Guard) (reqs : ι → Event) (sched : List (Action ι)) (i : ι) :
    Option Reply :=
  match (serveLocked app guards reqs sched).phases i with
  | .answered r => some r
  | _ => none

end WebAuthn.Flask
