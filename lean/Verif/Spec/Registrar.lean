import Verif.Model.Interface

/-!
# Observing the registrar

A registrar that behaves like a given one and keeps a log of the calls.
-/

namespace WebAuthn.Spec

/-- A call of a registrar method. -/
inductive Call where
  | read (id : Bytes)
  | attestation (r : AttestationRecord)
  | assertion (r : AssertionRecord)

/-- The call changes what is registered. -/
def Call.IsWrite : Call → Prop
  | .read _ => False
  | _ => True

/-- `reg` with a log, oldest call first. -/
def recording {σ : Type} (reg : Registrar σ) : Registrar (σ × List Call) where
  registerAttestation := fun r s =>
    ((reg.registerAttestation r s.1).1, (reg.registerAttestation r s.1).2, s.2 ++ [.attestation r])
  registerAssertion := fun r s =>
    ((reg.registerAssertion r s.1).1, (reg.registerAssertion r s.1).2, s.2 ++ [.assertion r])
  getCredentialData := fun id s =>
    ((reg.getCredentialData id s.1).1, (reg.getCredentialData id s.1).2, s.2 ++ [.read id])

end WebAuthn.Spec
