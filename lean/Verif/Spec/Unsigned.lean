import Verif.Spec.Ceremony
import Verif.Model.Interface

/-!
# Specification of the unsigned parts of a response

Of the response of a login, the authenticator signs the authenticator data and the hash of the
client data.  The raw id selects the key.  The rest is unsigned: the text of the id, the type, the
user handle, and the signature itself.
-/

namespace WebAuthn.Spec

open WebAuthn

/-- Responses of logins that differ in unsigned parts only. -/
def SameSigned (c c' : Credential) : Prop :=
  c.rawId = c'.rawId ∧ ∃ cdj raw sig sig' handle handle',
    c.response = .assertion cdj raw sig handle ∧ c'.response = .assertion cdj raw sig' handle'

/-- Credentials that differ in the text of the id and the type only. -/
def SameButNames (c c' : Credential) : Prop := c.rawId = c'.rawId ∧ c.response = c'.response

/-- The registrar does not look at unsigned parts when it records a login. -/
def IgnoresUnsigned {σ : Type} (reg : Registrar σ) : Prop :=
  ∀ c c' ad user rp, SameSigned c c' →
    reg.registerAssertion ⟨c, ad, user, rp⟩ = reg.registerAssertion ⟨c', ad, user, rp⟩

/-- The registrar looks neither at the text of the id nor at the type. -/
def IgnoresNames {σ : Type} (reg : Registrar σ) : Prop :=
  (∀ c c' ad user rp, SameButNames c c' →
    reg.registerAssertion ⟨c, ad, user, rp⟩ = reg.registerAssertion ⟨c', ad, user, rp⟩) ∧
  ∀ c c' o t user rp path, SameButNames c c' →
    reg.registerAttestation ⟨c, o, t, user, rp, path⟩ = reg.registerAttestation ⟨c', o, t, user, rp, path⟩

end WebAuthn.Spec
