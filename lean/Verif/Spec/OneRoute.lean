import Verif.Model.OneRoute
import Verif.Spec.FlaskOutcome

/-!
# One route for all (C105)
-/

namespace WebAuthn.Flask

open WebAuthn.Spec

/-- The request to one of the four routes that is meant by a request to the one route. -/
inductive Meant (app : App) : Ask → Event → Prop
  | registration (a : Ask) : a.form.credential = none → a.ceremony = some "registration" →
      Meant app a (.registrationRequest a.form.username a.newHandle a.newChallenge a.now)
  | login (a : Ask) : a.form.credential = none → a.ceremony ≠ some "registration" →
      Meant app a (.authenticationRequest a.form.username a.newChallenge a.now)
  | attestation (a : Ask) (cid : String) (c : Credential) (name : String) :
      Readable app a.form cid c name → ForRegistration c.response →
      Meant app a (.registrationResponse a.form a.now)
  | assertion (a : Ask) (cid : String) (c : Credential) (name : String) :
      Readable app a.form cid c name → ForLogin c.response →
      Meant app a (.authenticationResponse a.form a.now)
  | unreadable (a : Ask) (e : Event) : a.form.credential ≠ none →
      (∀ cid c name, ¬ Readable app a.form cid c name) →
      e = .registrationResponse a.form a.now ∨ e = .authenticationResponse a.form a.now → Meant app a e

/-- A response for the other ceremony. -/
inductive Misdirected (app : App) : Event → Prop
  | registration (f : Form) (t : Int) (cid : String) (c : Credential) (name : String) :
      Readable app f cid c name → ForLogin c.response → Misdirected app (.registrationResponse f t)
  | login (f : Form) (t : Int) (cid : String) (c : Credential) (name : String) :
      Readable app f cid c name → ForRegistration c.response → Misdirected app (.authenticationResponse f t)
  | empty (e : Event) (f : Form) (t : Int) : f.credential = none →
      e = .registrationResponse f t ∨ e = .authenticationResponse f t → Misdirected app e

end WebAuthn.Flask
