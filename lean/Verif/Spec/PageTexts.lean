import Verif.Model.PageFlow

/-!
# What the page may say
-/

namespace WebAuthn.Flask.Page

/-- The texts of the page, each for a name with which its button was clicked. -/
inductive MaySay (notes : List Note) : String → Prop
  | nothing : MaySay notes ""
  | noRegistration : MaySay notes "Failed to register username...could already be registered."
  | noAuthentication : MaySay notes "Failed to request authentication..."
  | registering (i : Nat) (n : String) : .clicked i .register n ∈ notes → MaySay notes ("Registering username " ++ n ++ ".")
  | creating (i : Nat) (n : String) : .clicked i .register n ∈ notes → MaySay notes ("Creating credential for " ++ n ++ ".")
  | attesting (i : Nat) (n : String) : .clicked i .register n ∈ notes → MaySay notes ("Attesting credential for " ++ n ++ ".")
  | registered (i : Nat) (n : String) : .clicked i .register n ∈ notes →
      MaySay notes ("Successfully registered credential for " ++ n ++ "!")
  | notRegistered (i : Nat) (n : String) : .clicked i .register n ∈ notes →
      MaySay notes ("Failed to register credential for " ++ n ++ "...")
  | requesting (i : Nat) (n : String) : .clicked i .authenticate n ∈ notes →
      MaySay notes ("Requesting authentication for username " ++ n ++ ".")
  | asserting (i : Nat) (n : String) : .clicked i .authenticate n ∈ notes → MaySay notes ("Asserting credential for " ++ n)
  | authorized (i : Nat) (n : String) : .clicked i .authenticate n ∈ notes →
      MaySay notes ("Successfully authorized username " ++ n ++ "!")
  | notAuthorized (i : Nat) (n : String) : .clicked i .authenticate n ∈ notes →
      MaySay notes ("Failed to authorize username " ++ n ++ "...")

end WebAuthn.Flask.Page
