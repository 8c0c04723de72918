import Verif.Model.Backend

/-!
# A registrar that knows the keys for verification only

Not code of the repository.  `verify` (verifiers.py 22-93) looks neither at `kty` nor at
`key_ops`, nor at the `alg` of an OKP key.  Here a registrar does not find the keys whose
parameters do not permit to verify signatures.  It shows that C83 can be met by a small change.
-/

namespace WebAuthn

/-- `key_ops`, if there, has `verify`. -/
def opsPermit (b : KeyBase) : Bool :=
  match b.keyOps with
  | none => true
  | some ops => ops.any fun o => o.id == .VERIFY

/-- The key may be used to verify signatures of the algorithms of its class. -/
def forVerification : CPK → Bool
  | .base _ => false
  | .ec2 b _ _ _ => b.kty.id == .EC2 && b.alg.all (fun a => a.id != .EDDSA) && opsPermit b
  | .okp b _ _ => b.kty.id == .OKP && b.alg.all (fun a => a.id == .EDDSA) && opsPermit b

/-- A registrar that does not find the other keys: the handler raises
`CredentialDataError` (backends.py 328-329). -/
def permitting {σ : Type} (reg : Registrar σ) : Registrar σ :=
  { reg with
    getCredentialData := fun id s =>
      match reg.getCredentialData id s with
      | (.ok (some cd), s') => (.ok (if forVerification cd.publicKey then some cd else none), s')
      | r => r }

end WebAuthn
