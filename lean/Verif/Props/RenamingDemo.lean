import Verif.Props.Renaming
import Verif.Props.FlaskDemo

/-!
# Other names, concretely (C103)
-/

namespace WebAuthn.Flask.Run

open Spec Props

/-- The address instead of the name. -/
def address (s : String) : String := s ++ "@example.com"

theorem address_injective : Function.Injective address := by
  intro a b h
  have := congrArg String.toList h
  simp only [address, String.toList_append] at this
  exact String.toList_inj.mp (List.append_cancel_right this)

/-- Ada logs in under the address. -/
theorem C103_instance_login :
    reply app ([e1, e2, e3].map (renamed address)) (renamed address e4) = success :=
  (C103_accepted app address_injective _ _).mpr reply4

/-- The handles are those that were drawn. -/
theorem C103_instance_handles :
    (run app ([e1, e2].map (renamed address))).users.map User.handle = [handle1, handle2] := by
  rw [(C103_handles app address_injective _).1, run2]
  rfl

/-- **C103** That no two names are alike is needed: two users with one name are one user. -/
theorem C103_injective_needed : ∃ (app : App) (π : String → String) (evs : List Event),
    (run app (evs.map (renamed π))).users.map User.handle ≠ (run app evs).users.map User.handle := by
  refine ⟨app, fun _ => "ada", [e1, e2], ?_⟩
  have h : (run app ([e1, e2].map (renamed fun _ => "ada"))).users = [⟨1, "ada", handle1⟩] := rfl
  rw [h, run2]
  intro h
  have := congrArg List.length h
  simp at this

end WebAuthn.Flask.Run
