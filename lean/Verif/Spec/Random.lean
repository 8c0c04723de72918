import Mathlib.Data.Rat.Defs
import Mathlib.SetTheory.Cardinal.Finite
import Verif.Spec.Phishing

/-!
# Specification of what chance can do to the example application

Everything outside of the application (browsers, users, attackers and clocks) is a
strategy, which chooses the next request by what has happened so far; the application
draws 64 random bytes where the code calls `secrets.token_bytes(64)` (app.py 157, 165,
247).  The bytes of a call are independent of all others and equally likely: a
probability is a fraction of all the sequences of bytes that can be drawn.
-/

namespace WebAuthn.Flask

open WebAuthn WebAuthn.Spec

/-- What `secrets.token_bytes(64)` draws. -/
abbrev Token := Fin 64 → Fin 256

def Token.bytes (t : Token) : Bytes := List.ofFn fun i => UInt8.ofFin (t i)

/-- What is drawn for a request: bytes for a user handle and bytes for a challenge.  A
request that needs no user handle, or no challenge, ignores them. -/
abbrev Coin := Token × Token

/-- A request, before the application draws. -/
inductive Move where
  | registrationRequest (username : Option String) (now : Int)
  | registrationResponse (f : Form) (now : Int)
  | authenticationRequest (username : Option String) (now : Int)
  | authenticationResponse (f : Form) (now : Int)

def Move.event (c : Coin) : Move → Event
  | .registrationRequest name t => .registrationRequest name c.1.bytes c.2.bytes t
  | .registrationResponse f t => .registrationResponse f t
  | .authenticationRequest name t => .authenticationRequest name c.2.bytes t
  | .authenticationResponse f t => .authenticationResponse f t

/-- What is outside of the application.  After a history, users approve `approvals`, and
then somebody sends `move`. -/
structure World where
  move : List Event → Move
  approvals : List Event → List Approval

/-- The history when the coins are drawn. -/
def World.history (w : World) (coins : List Coin) : List Event :=
  coins.foldl (fun evs c => evs ++ [(w.move evs).event c]) []

/-- The approvals from the beginning until the next request after the history. -/
def World.allApprovals (w : World) (evs : List Event) : List Approval :=
  (List.range (evs.length + 1)).flatMap fun i => w.approvals (evs.take i)

/-- `a` was approved when more than `n` requests of the history had been served, and
before the next request after it. -/
def World.ApprovedSince (w : World) (evs : List Event) (n : Nat) (a : Approval) : Prop :=
  ∃ i, n < i ∧ i ≤ evs.length ∧ a ∈ w.approvals (evs.take i)

/-- The probability of what is said of `q` draws. -/
noncomputable def probability (q : Nat) (P : List Coin → Prop) : ℚ :=
  Nat.card { t : Fin q → Coin // P (List.ofFn t) } / Nat.card (Fin q → Coin)

/-- A login in the history succeeded with a key whose holder gave no approval for it since
the challenge was issued. -/
def StaleLogin (app : App) (w : World) (evs : List Event) : Prop :=
  ∃ before f now n c name name' pre e k,
    Occurs evs before (.authenticationResponse f now) ∧
    reply app before (.authenticationResponse f now) = success ∧ Submits app f n c name ∧
    Occurs before pre e ∧ Registers app pre e c.rawId name' k ∧
    Holder app.env k (Sent app (before ++ [.authenticationResponse f now]))
      (· ∈ w.allApprovals before) ∧
    ¬ ∃ pre' e' ch t name'' a, Occurs before pre' e' ∧ Issues app pre' e' n ch t name'' ∧
      now - t ≤ 60000 ∧ w.ApprovedSince before pre'.length a ∧ Approves app.env a c ch

/-- A request for a challenge was not answered with one, though it named a user, for a
login one who had asked for a registration before. -/
def Unserved (app : App) (evs : List Event) : Prop :=
  ∃ pre e name, Occurs evs pre e ∧
    ((∃ h ch t, e = .registrationRequest (some name) h ch t) ∨
      ((∃ ch t, e = .authenticationRequest (some name) ch t) ∧
        ∃ h ch t, .registrationRequest (some name) h ch t ∈ pre)) ∧
    ∀ n ch t name', ¬ Issues app pre e n ch t name'

end WebAuthn.Flask
