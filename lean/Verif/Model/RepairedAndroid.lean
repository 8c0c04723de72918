import Verif.Model.Attesters

/-!
# Android key statements, repaired

Not code of the repository: `attest_android_key` with what it leaves out of WebAuthn 8.4.
-/

namespace WebAuthn.Repaired

/-- `[load_der_x509_certificate(c, default_backend()) for c in att_stmt.x5c]`, with `AttestationError`
for bytes that are not a certificate, in place of attesters.py 154-155. -/
def loadChain (env : Env) : List Bytes → Py (List Cert)
  | [] => .ok []
  | b :: bs => do
    let cert ← catching (env.loadCert b) Exc.isValueError .attestation
    let certs ← loadChain env bs
    return cert :: certs

/-- The algorithm of the statement is one of the key: the `else` that attesters.py 174-175 does not
have. -/
def algFits (alg : NV Alg) : CryptoKey → Bool
  | .ed25519 _ => alg.id == .EDDSA
  | .ed448 _ => alg.id == .EDDSA
  | _ => true

/-- `all(p == n for p in o)`. -/
def allAre (o : Asn1.Obj) (n : Int) : Py Bool :=
  match o.val with
  | some (.set l) => .ok (l.all (Asn1.Val.isInt n))
  | _ => .error .typeError

/-- `attest_android_key` (attesters.py 130-240) with the chain as trust path, the algorithm of the
statement for every kind of key, and no purpose but `KM_PURPOSE_SIGN`. -/
def attestAndroidKey (env : Env) (alg : NV Alg) (sig : Bytes) (x5c : List Bytes)
    (attObj : AttObjArg) (authData clientDataHash : Bytes) :
    Py (AttestationType × TrustedPath) := do
  let certs ← loadChain env x5c
  match certs with
  | [] => raise .attestation
  | cert :: _ => do
    let certPk ← cert.publicKey
    require (isEcOrEdKey certPk) .attestation
    require (algFits alg certPk) .attestation
    let ad ← attObj.authData
    let acd ← attestedOf ad
    let cpk ← match acd.credentialPublicKey with
      | some k => cryptographyPublicKey env k
      | none => raise .unimplemented
    androidVerify env alg sig certPk (authData ++ clientDataHash)
    require (env.spki cpk == env.spki certPk) .attestation
    let ext ← catching (do
      match ← cert.keyAttestationExt with
      | some raw => pure raw
      | none => .error .assertionError) isExtensionNotFound .attestation
    let kd ← catching (env.decodeDer Asn1.keyDescription ext) isPyAsn1Error .attestation
    let desc : Asn1.Obj := ⟨Asn1.keyDescription, some kd⟩
    checkKeyDescription desc clientDataHash
    require (← allAre (← (← desc.item "teeEnforced").item "purpose") 2) .attestation
    return (.BASIC, some certs)

/-- `attest` (attesters.py 37-56) with it. -/
def attestStrict (env : Env) (stmt : AttStmt) (attObj : AttObjArg) (authData clientDataHash : Bytes) :
    Py (AttestationType × TrustedPath) :=
  match stmt with
  | .androidKey alg sig x5c => attestAndroidKey env alg sig x5c attObj authData clientDataHash
  | stmt => WebAuthn.attest env stmt attObj authData clientDataHash

end WebAuthn.Repaired
