import Verif.Model.Flask

/-!
# A repaired example application

Not code of the repository.  A challenge is marked as used when a response with
it is answered with success, and is good for the user in its row only.  It shows
that C51 can be met by a small change of `registration_response` and
`authentication_response` (app.py 192-231, 276-315).
-/

namespace WebAuthn.Flask

/-- The database with a new column: the numbers of the used challenges. -/
structure RepairedDb where
  db : Db := {}
  used : List Nat := []

/-- A response endpoint with the two additional checks, and the mark. -/
def repairedResponse (app : App) (attestation : Bool) (f : Form) (now : Int)
    (respond : Db → Reply × Db) (s : RepairedDb) : Reply × RepairedDb :=
  match readResponse app attestation f now s.db with
  | .error r => (r, s)
  | .ok (_, ch, u) =>
    if ch.id ∈ s.used then (.text "Challenge already used" 400, s)
    else if ch.userId ≠ u.id then (.text "Challenge of another user" 400, s)
    else
      match respond s.db with
      | (.text "Success" 200, db) => (success, ⟨db, ch.id :: s.used⟩)
      | (r, db) => (r, ⟨db, s.used⟩)

def repairedStep (app : App) : Event → RepairedDb → Reply × RepairedDb
  | .registrationRequest n h c t, s =>
    let (r, db) := registrationRequest n h c t s.db
    (r, { s with db })
  | .registrationResponse f t, s => repairedResponse app true f t (registrationResponse app f t) s
  | .authenticationRequest n c t, s =>
    let (r, db) := authenticationRequest n c t s.db
    (r, { s with db })
  | .authenticationResponse f t, s => repairedResponse app false f t (authenticationResponse app f t) s

def repairedRun (app : App) (evs : List Event) : RepairedDb :=
  evs.foldl (fun s e => (repairedStep app e s).2) {}

def repairedReply (app : App) (evs : List Event) (e : Event) : Reply :=
  (repairedStep app e (repairedRun app evs)).1

end WebAuthn.Flask
