import Verif.Spec.Phishing

/-!
# Registrations that are sent again
-/

namespace WebAuthn.Flask

open WebAuthn.Spec

/-- A registration that was answered with success is answered with success again, whatever was sent in between, while its
challenge is fresh. -/
def Repeatable (rep : List Event → Event → Reply) (app : App) : Prop :=
  ∀ evs post f now now' n c name pre e ch t name', rep evs (.registrationResponse f now) = success →
    Submits app f n c name → Occurs evs pre e → IssuesBy rep pre e n ch t name' → now' - t ≤ 60000 →
    rep (evs ++ .registrationResponse f now :: post) (.registrationResponse f now') = success

end WebAuthn.Flask
