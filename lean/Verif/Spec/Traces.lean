import Verif.Spec.Flask

/-!
# What is left of requests that were refused
-/

namespace WebAuthn.Flask

/-- The request was served: options, or success. -/
def Obtained (r : Reply) : Prop := (∃ v, r = .json v) ∨ r = success

/-- `kept` are those of the requests `evs`, in order, that were served. -/
inductive Logged (rep : List Event → Event → Reply) : List Event → List Event → Prop
  | nil : Logged rep [] []
  | served {evs kept : List Event} {e : Event} : Logged rep evs kept → Obtained (rep evs e) → Logged rep (evs ++ [e]) (kept ++ [e])
  | refused {evs kept : List Event} {e : Event} : Logged rep evs kept → ¬ Obtained (rep evs e) → Logged rep (evs ++ [e]) kept

/-- Every request gets the reply it would get had those that were refused never been sent. -/
def Traceless (rep : List Event → Event → Reply) : Prop := ∀ evs kept, Logged rep evs kept → ∀ e, rep evs e = rep kept e

/-- The challenge that is drawn for a registration is none that was issued before. -/
def NewChallenges (rep : List Event → Event → Reply) (evs : List Event) : Prop :=
  ∀ pre name h ch t, Occurs evs pre (.registrationRequest (some name) h ch t) →
    ∀ pre' e n t' name', Occurs pre pre' e → ¬ IssuesBy rep pre' e n ch t' name'

end WebAuthn.Flask
