import Verif.Model.Attesters

/-!
# FIDO U2F statements, repaired

Not code of the repository: `attest_fido_u2f` with the check of the lengths of the coordinates that
WebAuthn 8.6 asks for.
-/

namespace WebAuthn.Repaired

/-- `attest_fido_u2f` (attesters.py 59-127), with `AttestationError` for keys whose coordinates do
not have 32 bytes, in front of attesters.py 110. -/
def attestFidoU2F (env : Env) (sig : Bytes) (x5c : List Bytes) (attObj : AttObjArg)
    (clientDataHash : Bytes) : Py (AttestationType × TrustedPath) :=
  match x5c with
  | [certBytes] => do
    let cert ← catching (env.loadCert certBytes) Exc.isValueError .attestation
    let pk ← cert.publicKey
    match pk with
    | .ec curve _ _ => do
      require (curve == .SECP256R1) .attestation
      let ad ← attObj.authData
      let acd ← attestedOf ad
      match acd.credentialPublicKey with
      | none => .error .assertionError
      | some cpk => do
        let (x, y) ← keyXY cpk
        require (x.length == 32 && y.length == 32) .attestation
        let publicKeyU2F := [4] ++ (x ++ y)
        let verificationData :=
          [0] ++ ad.rpIdHash ++ (clientDataHash ++ acd.credentialId ++ publicKeyU2F)
        catching (env.ecdsaVerify pk .SHA256 sig verificationData)
          isInvalidSignature .attestation
        return (.BASIC, some [cert])
    | _ => raise .attestation
  | _ => raise .attestation

/-- `attest` (attesters.py 37-56) with it. -/
def attest (env : Env) (stmt : AttStmt) (attObj : AttObjArg) (authData clientDataHash : Bytes) :
    Py (AttestationType × TrustedPath) :=
  match stmt with
  | .fidoU2F sig x5c => attestFidoU2F env sig x5c attObj clientDataHash
  | stmt => WebAuthn.attest env stmt attObj authData clientDataHash

end WebAuthn.Repaired
