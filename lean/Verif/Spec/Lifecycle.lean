import Verif.Spec.Phishing
import Verif.Spec.Swept
import Verif.Model.Lifecycle

/-!
# What holds where the application is started and stopped
-/

namespace WebAuthn.Flask

open WebAuthn.Spec

/-- A process serves: it was started, and neither stopped nor killed since. -/
def Listening (hs : List Life) : Prop := ∃ a b, hs = a ++ .start :: b ∧ .stop ∉ b ∧ .kill ∉ b

/-- The step number `q` ends the process that serves. -/
def StoppedAt (hs : List Life) (q : Nat) : Prop := hs[q]? = some .stop ∧ Listening (hs.take q)

/-- The step number `q` starts a process while one serves. -/
def StartedTwiceAt (hs : List Life) (q : Nat) : Prop := hs[q]? = some .start ∧ Listening (hs.take q)

/-- No process is started while one serves. -/
def OneProcess (hs : List Life) : Prop := ∀ q, ¬ StartedTwiceAt hs q

/-- The step number `q` removes the tables; a process that is `careful` does not when it cannot serve. -/
def RemovedAt (careful : Bool) (hs : List Life) (q : Nat) : Prop :=
  StoppedAt hs q ∨ careful = false ∧ StartedTwiceAt hs q

/-- Since the step number `i` the tables have not been removed. -/
def Lasts (careful : Bool) (hs : List Life) (i : Nat) : Prop := ∀ q, i < q → ¬ RemovedAt careful hs q

/-- The requests of a history. -/
def requestsOf (hs : List Life) : List Event :=
  hs.filterMap fun
    | .request e => some e
    | _ => none

/-- The step number `i` issued the challenge. -/
def IssuedIn (rep : List Life → Event → Reply) (hs : List Life) (i n : Nat) (ch : Bytes) (t : Int) (name : String) : Prop :=
  ∃ e, hs[i]? = some (.request e) ∧ IssuesBy (fun _ => rep (hs.take i)) [] e n ch t name

/-- The step number `i` registered the credential. -/
def RegisteredIn (rep : List Life → Event → Reply) (app : App) (hs : List Life) (i : Nat) (id : Bytes) (name : String)
    (k : CPK) : Prop :=
  ∃ e, hs[i]? = some (.request e) ∧ RegistersBy (fun _ => rep (hs.take i)) app [] e id name k

/-- The step number `i` was a login with the response `c`, whose credential had the key `k`. -/
def LoggedInIn (careful : Bool) (rep : List Life → Event → Reply) (app : App) (hs : List Life) (k : CPK) (c : Credential)
    (i : Nat) : Prop :=
  ∃ f t n name j name', hs[i]? = some (.request (.authenticationResponse f t)) ∧
    rep (hs.take i) (.authenticationResponse f t) = success ∧ Submits app f n c name ∧
    RegisteredIn rep app hs j c.rawId name' k ∧ j < i ∧ Lasts careful (hs.take i) j

/-- A process that is started while one serves makes no difference. -/
def Undisturbed (rep : List Life → Event → Reply) : Prop :=
  ∀ a b e, Listening a → rep (a ++ .start :: b) e = rep (a ++ b) e

end WebAuthn.Flask
