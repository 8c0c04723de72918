import Verif.Model.Flask

/-!
# The example application that marks what it has found too old

Not code of the repository.  `Challenge` (app.py 56-60) has one more column, `expired`, which is false at
first, and the checks of the time (app.py 213-215, 297-299) read

    if challenge.expired or timestamp_ms() - challenge.timestamp_ms > TIMEOUT:
        challenge.expired = True
        db.session.commit()
        return ('Timeout', 408)

The column is kept beside the tables, as the list of the numbers of the rows in which it is true.
-/

namespace WebAuthn.Flask

/-- The reply of the check of the time. -/
def isTimeout : Reply → Bool
  | .text message status => message == "Timeout" && status == 408
  | _ => false

/-- A response endpoint, with the column. -/
def expiredResponse (app : App) (attestation : Bool) (f : Form) (now : Int) (s : Db × List Nat) :
    Reply × Db × List Nat :=
  match readResponse app attestation f now s.1 with
  | .error r => (r, s.1, if isTimeout r then (f.challengeID.bind app.rowId).toList ++ s.2 else s.2)
  | .ok (_, ch, _) =>
    if ch.id ∈ s.2 then (.text "Timeout" 408, s)
    else
      let (r, db) := if attestation then registrationResponse app f now s.1
        else authenticationResponse app f now s.1
      (r, db, s.2)

/-- A request, with the column. -/
def expiredStep (app : App) (e : Event) (s : Db × List Nat) : Reply × Db × List Nat :=
  match e with
  | .registrationResponse f t => expiredResponse app true f t s
  | .authenticationResponse f t => expiredResponse app false f t s
  | e => let (r, db) := step app e s.1; (r, db, s.2)

def expiredRun (app : App) (evs : List Event) : Db × List Nat :=
  evs.foldl (fun s e => (expiredStep app e s).2) ({}, [])

def expiredReply (app : App) (evs : List Event) (e : Event) : Reply :=
  (expiredStep app e (expiredRun app evs)).1

end WebAuthn.Flask
