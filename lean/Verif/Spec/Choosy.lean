import Verif.Spec.Phishing

/-!
# The keys a Relying Party wants

The algorithms it asked for (C71), and the form that WebAuthn prescribes (C72).
-/

namespace WebAuthn.Spec

def baseOf : CPK → KeyBase
  | .base b | .ec2 b _ _ _ | .okp b _ _ => b

/-- The key says that it is for the algorithm. -/
def KeyAlg (k : CPK) (a : Alg) : Prop := ∃ m, (baseOf k).alg = some m ∧ m.id = a

/-- The curve of an algorithm (WebAuthn 5.8.5). -/
inductive AlgCurve : Alg → Curve → Prop
  | es256 : AlgCurve .ES256 .P_256
  | es384 : AlgCurve .ES384 .P_384
  | es512 : AlgCurve .ES512 .P_521
  | eddsa : AlgCurve .EDDSA .ED25519

def HasCurve : CPK → Curve → Prop
  | .base _, _ => False
  | .ec2 _ _ _ c, crv => c.id = crv
  | .okp _ c _, crv => c.id = crv

/-- A credential key of WebAuthn: no optional members besides `alg` (6.5.1), the curve of
the algorithm. -/
def Profile (k : CPK) : Prop :=
  (baseOf k).kid = none ∧ (baseOf k).keyOps = none ∧ (baseOf k).baseIV = none ∧
    ∃ a crv, KeyAlg k a ∧ HasCurve k crv ∧ AlgCurve a crv

/-- The response contains the key. -/
def Attests (env : Env) (c : Credential) (k : CPK) : Prop :=
  ∃ cdj ob o raw acd, c.response = .attestation cdj ob ∧ AttObjOf env ob o raw ∧
    o.authData.attested = some acd ∧ acd.credentialPublicKey = some k

/-- Whatever the registrar, a registration succeeds only with a credential key of WebAuthn. -/
def ProfileOnly (env : Env) : Prop :=
  ∀ (σ : Type) (reg : Registrar σ) (a : AttestationArgs) (s s' : σ) (k : CPK),
    handleAttestation env reg a s = (.ok (), s') → Attests env a.credential k → Profile k

end WebAuthn.Spec

namespace WebAuthn.Flask

open Spec

/-- The application asks for ES256 (`CreationReply`); only keys for ES256 are registered. -/
def RequestedOnly (rep : List Event → Event → Reply) (app : App) : Prop :=
  ∀ evs e id name k, RegistersBy rep app evs e id name k → KeyAlg k .ES256

/-- A registration response in the events has the key. -/
def Offers (app : App) (evs : List Event) (k : CPK) : Prop :=
  ∃ f t n c name, .registrationResponse f t ∈ evs ∧ Submits app f n c name ∧ Attests app.env c k

end WebAuthn.Flask
