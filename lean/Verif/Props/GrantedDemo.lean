import Verif.Props.Granted
import Verif.Props.RetryDemo

/-!
# Responses that are granted, and that are not, in a concrete history (C115)
-/

namespace WebAuthn.Flask

open WebAuthn WebAuthn.Spec WebAuthn.Props

namespace Run

/-- Ada's registration is granted, but not twice (instances of `C115_registration`). -/
example : RegistrationGranted app [e1, e2] (formOf "1" (regCredential challenge1) "ada") 5000 ∧
    ¬ RegistrationGranted app [e1, e2, e3, e4] (formOf "1" (regCredential challenge1) "ada") 5000 :=
  ⟨(C115_registration app _ _ _).mp reply3,
    fun h => C111_never (post := [e4]) reply3 ((C115_registration app _ _ _).mpr h)⟩

/-- Her login is granted after the registration, and not before (instances of `C115_login`). -/
example : LoginGranted app [e1, e2, e3] (formOf "1" (authCredential 1 challenge1) "ada") 9000 ∧
    reply app [e1, e2] e4 ≠ success := by
  refine ⟨(C115_login app _ _ _).mp reply4, fun h => ?_⟩
  obtain ⟨c, ch, name, hd, pre, e, owner, h', k, key, cd, user, rp, ad, -, ⟨post, ho⟩, ⟨f, t, _, _, _, _, _, _, _, rfl, -⟩, -⟩ :=
    (C115_login app _ _ _).mp h
  have hm : Event.registrationResponse f t ∈ [e1, e2] := by rw [ho]; simp
  simp [e1, e2] at hm

end Run

end WebAuthn.Flask
