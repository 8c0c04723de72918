import Verif.Spec.Ceremony
import Verif.Model.Attesters
import Verif.Model.Backend

/-!
# Specification of what accepted signatures are about

The signatures that the library checks are by the credential key over the authenticator data and
the hash of the client data (assertions, and statements of Android keys), and by the key of a
manufacturer over a message that has the attested key and its id (FIDO U2F statements).
-/

namespace WebAuthn.Spec

open WebAuthn

/-- What an accepted response says was signed: a login, an Android key statement, or a FIDO U2F
statement that the key with the coordinates `x` and `y` has the id `id`. -/
inductive Signed where
  | login (raw cdj : Bytes)
  | androidKey (raw cdj : Bytes)
  | u2f (rpIdHash cdj id x y : Bytes)

/-- The client data. -/
def Signed.cdj : Signed → Bytes
  | .login _ cdj => cdj
  | .androidKey _ cdj => cdj
  | .u2f _ cdj _ _ _ => cdj

/-- The bytes that are signed (WebAuthn 7.2 step 20, 8.4, and 8.6). -/
def Signed.message (env : Env) : Signed → Bytes
  | .login raw cdj => raw ++ env.sha256 cdj
  | .androidKey raw cdj => raw ++ env.sha256 cdj
  | .u2f rpIdHash cdj id x y => [0x00] ++ rpIdHash ++ env.sha256 cdj ++ id ++ [0x04] ++ x ++ y

/-- The signature is accepted by the Relying Party with the id `rpId`: as that of a login by
`handle_credential_assertion`, or as that of a statement by `att`, in a registration that is valid
in all other respects. -/
def Accepted (att : Env → AttStmt → AttObjArg → Bytes → Bytes → Py (AttestationType × TrustedPath))
    (env : Env) (rpId : String) : Signed → Prop
  | .login raw cdj => ∃ (σ : Type) (reg : Registrar σ) (a : AssertionArgs) (s s' s1 : σ) (sig : Bytes)
      (handle : Option Bytes) (cd : CredentialData) (rp : RpEntity),
      handleAssertion env reg a s = (.ok (), s') ∧
      a.credential.response = .assertion cdj raw sig handle ∧
      reg.getCredentialData a.credential.rawId s = (.ok (some cd), s1) ∧ RpOk cd.rp a.rp rp ∧
      rp.id = rpId
  | .androidKey raw cdj => ∃ (a : AttestationArgs) (ob : Bytes) (o : AttestationObject)
      (r : AttestationType × TrustedPath) (alg : NV Alg) (sig : Bytes) (x5c : List Bytes),
      a.credential.response = .attestation cdj ob ∧ a.rp.id = rpId ∧ AttestationOk env a o raw ∧
      o.attStmt = .androidKey alg sig x5c ∧
      att env o.attStmt (.attObj o) raw (env.sha256 cdj) = .ok r
  | .u2f rpIdHash cdj id x y => ∃ (a : AttestationArgs) (ob : Bytes) (o : AttestationObject) (raw : Bytes)
      (r : AttestationType × TrustedPath) (sig : Bytes) (x5c : List Bytes)
      (acd : AttestedCredentialData) (b : KeyBase) (crv : NV Curve),
      a.credential.response = .attestation cdj ob ∧ a.rp.id = rpId ∧ AttestationOk env a o raw ∧
      o.attStmt = .fidoU2F sig x5c ∧
      att env o.attStmt (.attObj o) raw (env.sha256 cdj) = .ok r ∧
      o.authData.rpIdHash = rpIdHash ∧ o.authData.attested = some acd ∧ acd.credentialId = id ∧
      acd.credentialPublicKey = some (.ec2 b x y crv)

/-- What was signed for one thing is accepted for no other: accepted responses with the same
signed bytes say the same, unless their client data collide, or the hash of the RP id is zero. -/
def Separate (att : Env → AttStmt → AttObjArg → Bytes → Bytes → Py (AttestationType × TrustedPath))
    (env : Env) : Prop :=
  ∀ rpId u u', Accepted att env rpId u → Accepted att env rpId u' → u.message env = u'.message env →
    u = u' ∨ (u.cdj ≠ u'.cdj ∧ env.sha256 u.cdj = env.sha256 u'.cdj) ∨
    ∃ b, Utf8 b rpId ∧ env.sha256 b = List.replicate 32 0

end WebAuthn.Spec
