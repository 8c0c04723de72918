import Verif.Model.Flask

/-!
# A registrar that chooses the keys it takes

Not code of the repository.  `handle_credential_attestation` (backends.py 69-227) has no
argument for the algorithms that were asked for, and `RegistrarImpl` (app.py 75-97) stores
whatever key it is given.  Here a registrar refuses the keys that do not pass a check.  It
shows that C71 and C72 can be met by a small change.
-/

namespace WebAuthn

/-- A registrar that refuses keys.  The method returns a text, so the handler raises
`RegistrationError` (backends.py 222-225). -/
def choosy {σ : Type} (good : CPK → Bool) (reg : Registrar σ) : Registrar σ :=
  { reg with
    registerAttestation := fun r s =>
      match r.att.authData.attested.bind (·.credentialPublicKey) with
      | some k => if good k then reg.registerAttestation r s else (.ok (some "Invalid key"), s)
      | none => reg.registerAttestation r s }

/-- The algorithm of the key is in a list. -/
def algIn (algs : List Alg) : CPK → Bool
  | .base b | .ec2 b _ _ _ | .okp b _ _ => b.alg.any fun a => algs.contains a.id

/-- Only the members that a credential key needs, and the curve of the algorithm. -/
def webAuthnKey : CPK → Bool
  | .base _ => false
  | .ec2 b _ _ crv => b.kid.isNone && b.keyOps.isNone && b.baseIV.isNone && b.alg.any fun a =>
      [(Alg.ES256, Curve.P_256), (.ES384, .P_384), (.ES512, .P_521)].contains (a.id, crv.id)
  | .okp b crv _ => b.kid.isNone && b.keyOps.isNone && b.baseIV.isNone && b.alg.any fun a =>
      (a.id, crv.id) == (Alg.EDDSA, Curve.ED25519)

namespace Flask

/-- `registration_response` (app.py 192-231) with such a registrar. -/
def choosyResponse (good : CPK → Bool) (app : App) (f : Form) (now : Int) (db : Db) : Reply × Db :=
  match readResponse app true f now db with
  | .error r => (r, db)
  | .ok (c, ch, u) =>
    let (r, db) := handleAttestation app.env (choosy good (registrar app.env)) (attestationArgs c ch u) db
    (conclude "Could not handle credential attestation" r, db)

def choosyStep (good : CPK → Bool) (app : App) (e : Event) (db : Db) : Reply × Db :=
  match e with
  | .registrationResponse f t => choosyResponse good app f t db
  | e => step app e db

def choosyRun (good : CPK → Bool) (app : App) (evs : List Event) : Db :=
  evs.foldl (fun db e => (choosyStep good app e db).2) {}

def choosyReply (good : CPK → Bool) (app : App) (evs : List Event) (e : Event) : Reply :=
  (choosyStep good app e (choosyRun good app evs)).1

end Flask

end WebAuthn
