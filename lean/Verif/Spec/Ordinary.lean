import Verif.Model.Interface

/-!
# Dependencies that raise only ordinary exceptions

`KeyboardInterrupt`, `SystemExit` and the like are not instances of `Exception`
and pass through every handler of the package.
-/

namespace WebAuthn.Spec

/-- The computation raises instances of `Exception` only. -/
def Ordinary {α : Type} (m : Py α) : Prop := ∀ e, m = .error e → ∀ n, e ≠ .base n

/-- So do all dependencies. -/
structure OrdinaryEnv (env : Env) : Prop where
  jsonLoads : ∀ t, Ordinary (env.jsonLoads t)
  cborLoad : ∀ b, Ordinary (env.cborLoad b)
  ecPoint : ∀ c x y, Ordinary (env.ecPoint c x y)
  ed25519Load : ∀ b, Ordinary (env.ed25519Load b)
  ed448Load : ∀ b, Ordinary (env.ed448Load b)
  ecdsaVerify : ∀ k h s d, Ordinary (env.ecdsaVerify k h s d)
  eddsaVerify : ∀ k s d, Ordinary (env.eddsaVerify k s d)
  loadCert : ∀ b, Ordinary (env.loadCert b)
  publicKey : ∀ b c, env.loadCert b = .ok c → Ordinary c.publicKey
  keyAttestationExt : ∀ b c, env.loadCert b = .ok c → Ordinary c.keyAttestationExt
  decodeDer : ∀ t b, Ordinary (env.decodeDer t b)

/-- So do all methods of the registrar. -/
structure OrdinaryRegistrar {σ : Type} (reg : Registrar σ) : Prop where
  registerAttestation : ∀ r s, Ordinary (reg.registerAttestation r s).1
  registerAssertion : ∀ r s, Ordinary (reg.registerAssertion r s).1
  getCredentialData : ∀ id s, Ordinary (reg.getCredentialData id s).1

end WebAuthn.Spec
