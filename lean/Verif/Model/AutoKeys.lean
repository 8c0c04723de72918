import Verif.Model.Accounts

/-!
# The example application with keys that are not used again

Not code of the repository: the table of users (app.py 36-43) declared with
`__table_args__ = {'sqlite_autoincrement': True}`, with which SQLite takes for the key of a new row one
more than the greatest that was ever in the table.
-/

namespace WebAuthn.Flask

/-- A new user gets the key `s.2` (app.py 157-163). -/
def admit (e : Event) (s : Db × Nat) : Db × Nat :=
  match e with
  | .registrationRequest (some name) handle _ _ =>
    if s.1.users.any fun u => u.username == name || u.handle == handle then s
    else ({ s.1 with users := s.1.users ++ [⟨s.2, name, handle⟩] }, s.2 + 1)
  | _ => s

/-- The tables, and the key of the next new user. -/
def autoRun (app : App) (drop : String → Db → Db) (ops : List AccountOp) : Db × Nat :=
  ops.foldl (fun s => fun
    | .request e => ((keyedStep app e (admit e s).1).2, (admit e s).2)
    | .delete name => (drop name s.1, s.2)) ({}, 1)

def autoReply (app : App) (drop : String → Db → Db) (ops : List AccountOp) (e : Event) : Reply :=
  (keyedStep app e (admit e (autoRun app drop ops)).1).1

end WebAuthn.Flask
