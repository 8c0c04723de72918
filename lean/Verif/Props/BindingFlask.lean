import Verif.Props.Binding
import Verif.Props.Flask

/-!
# The example application refuses clients that know token bindings (C102)
-/

namespace WebAuthn.Flask

open Spec Props

/-- **C102** The client of a registration the application accepts reported no token binding. -/
theorem C102_application_registration {app : App} {evs : List Event} {f : Form} {now : Int} {n : Nat}
    {c : Credential} {name : String} {cdj : Bytes} {cd : ClientData}
    (h : reply app evs (.registrationResponse f now) = success) (hs : Submits app f n c name)
    (hc : HasClientData c.response cdj) (hd : ClientDataOf app.env cdj cd) : cd.tokenBinding = none := by
  obtain ⟨_, c', _, ch, u, _, _, _, _, _, hs', -, -, -, -, -, ha, -⟩ := registration_success h
  obtain ⟨-, rfl, -⟩ := submits_unique hs hs'
  obtain ⟨_, _, e, ⟨d, h1, -, -, -, h2⟩, -⟩ := ha
  have e : c.response = _ := e
  rw [e] at hc
  cases hc
  cases clientDataOf_unique hd h1
  have h2 : TokenBindingOk none _ := h2
  generalize cd.tokenBinding = t at h2
  cases h2
  rfl

/-- **C102** The same for the logins. -/
theorem C102_application_authentication {app : App} {evs : List Event} {f : Form} {now : Int} {n : Nat}
    {c : Credential} {name : String} {cdj : Bytes} {cd : ClientData}
    (h : reply app evs (.authenticationResponse f now) = success) (hs : Submits app f n c name)
    (hc : HasClientData c.response cdj) (hd : ClientDataOf app.env cdj cd) : cd.tokenBinding = none := by
  obtain ⟨_, c', _, ch, u, _, _, _, _, _, hs', -, -, -, -, -, -, -, -, ha, -⟩ := authentication_success h
  obtain ⟨-, rfl, -⟩ := submits_unique hs hs'
  obtain ⟨_, _, _, _, e, -, -, ⟨d, h1, -, -, -, h2⟩, -⟩ := ha
  have e : c.response = _ := e
  rw [e] at hc
  cases hc
  cases clientDataOf_unique hd h1
  have h2 : TokenBindingOk none _ := h2
  generalize cd.tokenBinding = t at h2
  cases h2
  rfl

end WebAuthn.Flask
