import Verif.Model.PageFlow
import Verif.Spec.Page

/-!
# Specification of the buttons of the page

What the page may tell the user, and what belongs to one flow.
-/

namespace WebAuthn.Flask.Page

open WebAuthn WebAuthn.Spec

/-- The page tells that the user `name` registered a credential, or was authorized. -/
def Tells (w : World) : Button → String → Prop
  | .register, name => w.page.status = "Successfully registered credential for " ++ name ++ "!"
  | .authenticate, name => w.page.status = "Successfully authorized username " ++ name ++ "!"

/-- The response that a flow of the button submits. -/
def responseEvent : Button → Form → Int → Event
  | .register => .registrationResponse
  | .authenticate => .authenticationResponse

/-- The application has accepted a response of this kind for the user `name`. -/
def Accepted (app : App) (evs : List Event) (b : Button) (name : String) : Prop :=
  ∃ pre f t n c, Occurs evs pre (responseEvent b f t) ∧ Succeeds app pre (responseEvent b f t) t n c name

/-- What the page tells is so. -/
def Truthful (app : App) (w : World) : Prop :=
  ∀ b name, Tells w b name → Accepted app w.events b name

/-- Every form that a flow submits is made of the user name that was typed for the
flow, the reply to its request and the credential that was made in it. -/
def Coherent (w : World) : Prop :=
  ∀ i f, .submitted i f ∈ w.notes → ∃ b name r c, .clicked i b name ∈ w.notes ∧
    .replied i r ∈ w.notes ∧ .made i c ∈ w.notes ∧ credentialForm b r c name = some f

/-- A flow that has read its reply and is not over. -/
def Holding : Point → Prop
  | .credential .. | .response _ => True
  | _ => False

/-- No flow reads its reply while another of the same button that has read its own is
not over. -/
def Undisturbed (own : Bool) (app : App) (acts : List Act) : Prop :=
  ∀ pre i j b name r wire fl, pre ++ [.read i] <+: acts → i ≠ j →
    (world own app pre).flows[i]? = some ⟨b, .body name r, wire⟩ →
    (world own app pre).flows[j]? = some fl → fl.button = b → ¬ Holding fl.point

/-- A button is clicked only when the flows that it has started are over. -/
def OneAtATime (own : Bool) (app : App) (acts : List Act) : Prop :=
  ∀ pre b name fl, pre ++ [.click b name] <+: acts → fl ∈ (world own app pre).flows →
    fl.button = b → fl.point = .over

end WebAuthn.Flask.Page
