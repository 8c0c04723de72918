import Verif.Model.Interaction

/-!
# The handlers behind locks

Not code of the repository.  Handlers overlap, as in `Verif/Model/Interaction.lean`, but each takes
a lock before it begins, which it gives back when it is done; a Relying Party can do so around its
calls of `handle_credential_attestation` and `handle_credential_assertion` (backends.py 75-230 and
232-457).  There may be one lock for all, or one per credential id.

At any moment a handler may be cut off, with the lock given back and nothing rolled back.
-/

namespace WebAuthn

variable {ι κ σ : Type} [DecidableEq ι] [DecidableEq κ]

/-- A handler waits for its lock, runs, has returned or raised, or was cut off. -/
inductive Turn where
  | waiting
  | running (p : Prog)
  | finished (r : Py Unit)
  | lost

/-- What happens next: the handler `i` goes on, or is cut off. -/
inductive Move (ι : Type) where
  | go (i : ι)
  | cut (i : ι)

structure LockedSystem (ι κ σ : Type) where
  turns : ι → Turn
  /-- The handlers that have the locks. -/
  holder : κ → Option ι
  state : σ

def LockedSystem.put (x : LockedSystem ι κ σ) (i : ι) (t : Turn) : LockedSystem ι κ σ :=
  { x with turns := fun j => if j = i then t else x.turns j }

def LockedSystem.hand (x : LockedSystem ι κ σ) (c : κ) (o : Option ι) : LockedSystem ι κ σ :=
  { x with holder := fun d => if d = c then o else x.holder d }

/-- Handler `i` goes on: it takes the lock if that is free, makes its next registrar call, or is
done and gives back the lock. -/
def LockedSystem.go (reg : Registrar σ) (lock : ι → κ) (progs : ι → Prog) (x : LockedSystem ι κ σ)
    (i : ι) : LockedSystem ι κ σ :=
  match x.turns i with
  | .waiting =>
    match x.holder (lock i) with
    | some _ => x
    | none => (x.put i (.running (progs i))).hand (lock i) (some i)
  | .running (.done r) => (x.put i (.finished r)).hand (lock i) none
  | .running p => { x.put i (.running (p.step reg x.state).1) with state := (p.step reg x.state).2 }
  | .finished _ => x
  | .lost => x

/-- Handler `i` is cut off. -/
def LockedSystem.cut (lock : ι → κ) (x : LockedSystem ι κ σ) (i : ι) : LockedSystem ι κ σ :=
  match x.turns i with
  | .waiting => x.put i .lost
  | .running _ => (x.put i .lost).hand (lock i) none
  | .finished _ => x
  | .lost => x

def LockedSystem.move (reg : Registrar σ) (lock : ι → κ) (progs : ι → Prog)
    (x : LockedSystem ι κ σ) : Move ι → LockedSystem ι κ σ
  | .go i => x.go reg lock progs i
  | .cut i => x.cut lock i

/-- What became of the handlers, when all this happened to them. -/
def runLocked (reg : Registrar σ) (lock : ι → κ) (progs : ι → Prog) (s : σ) (moves : List (Move ι)) :
    LockedSystem ι κ σ :=
  moves.foldl (LockedSystem.move reg lock progs) ⟨fun _ => .waiting, fun _ => none, s⟩

/-- What handler `i` returned or raised. -/
def lockedResult (reg : Registrar σ) (lock : ι → κ) (progs : ι → Prog) (s : σ) (moves : List (Move ι))
    (i : ι) : Option (Py Unit) :=
  match (runLocked reg lock progs s moves).turns i with
  | .finished r => some r
  | _ => none

end WebAuthn
