import Verif.Spec.Granted

/-!
# Histories in which logins are left out
-/

namespace WebAuthn.Flask

/-- The second history is the first without some of the logins. -/
inductive LeavesOut : List Event → List Event → Prop
  | nil : LeavesOut [] []
  | keep (evs evs' : List Event) (e : Event) : LeavesOut evs evs' → LeavesOut (evs ++ [e]) (evs' ++ [e])
  | skip (evs evs' : List Event) (f : Form) (t : Int) : LeavesOut evs evs' →
      LeavesOut (evs ++ [.authenticationResponse f t]) evs'

end WebAuthn.Flask
