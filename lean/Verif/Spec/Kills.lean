import Verif.Model.Kills
import Verif.Spec.FlaskFaults
import Verif.Spec.FlaskThreads

/-!
# What holds where the application is killed at any time
-/

namespace WebAuthn.Flask

variable {ι : Type} [DecidableEq ι]

/-- How many statements of `i` were to be executed. -/
def attempts (ticks : List (Tick ι)) (i : ι) : Nat :=
  ticks.countP fun
    | .statement j => j == i
    | _ => false

/-- The history without the request `i`. -/
def leavingOut (ticks : List (Tick ι)) (i : ι) : List (Tick ι) :=
  ticks.filter fun
    | .statement j | .send j => j != i
    | .kill => true

/-- A request whose reply was not sent has left no trace: the tables are as without it. -/
def NoTrace (rec : List (Tick ι) → ι → Option Reply) (tables : List (Tick ι) → Db) : Prop :=
  ∀ ticks i, rec (ticks ++ [.kill]) i = none → tables (ticks ++ [.kill]) = tables (leavingOut ticks i ++ [.kill])

/-- A login is with a credential whose registration was answered. -/
def RegistrationAnswered (rec : List (Tick ι) → ι → Option Reply) (app : App) (reqs : ι → Event) : Prop :=
  ∀ ticks i f now n c name, reqs i = .authenticationResponse f now → Submits app f n c name →
    rec ticks i = some success → ∃ pre j k, pre <+: ticks ∧ RegisteredBy rec app reqs pre j c.rawId name k

end WebAuthn.Flask
