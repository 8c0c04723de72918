import Verif.Model.Package

/-!
# The comparison of counters as in the standard

Not code of the repository.  WebAuthn 7.2 step 17 compares the counters only if one of them is not
zero, since authenticators without a counter always report zero.  backends.py 432 asks whether the
stored counter `is not None`.  Here it asks whether it is true, which in Python neither `None` nor 0
is.  It shows that C98 can be met by a small change.
-/

namespace WebAuthn

namespace Counterless

/-- backends.py 431-436, with `if registered_sign_count:` in line 432. -/
def checkSignCount (registered : Option Int) (signCount : Nat) (ignoreCloneError : Bool) : Py Unit :=
  match registered with
  | none => .ok ()
  | some n =>
    if n = 0 then .ok ()
    else require (!((signCount : Int) ≤ n) || ignoreCloneError) .signatureCount

/-- backends.py 331-436, with that. -/
def assertionChecks (env : Env) (a : AssertionArgs) (allowed : List Origin)
    (cd : CredentialData) : Py AssertionRecord := do
  let response := a.credential.response
  let user ← resolveUser a.user cd.user response
  let rp ← resolveRp a.rp cd.rp
  checkClientData env response.clientDataJSON "webauthn.get" a.expectedChallenge allowed
    a.tokenBinding
  let clientDataHash := env.sha256 response.clientDataJSON
  let rpIdHash := env.sha256 (utf8Encode rp.id)
  let raw ← response.authenticatorData
  let ad ← parseAuthenticatorData env raw
  checkAuthData ad rpIdHash a.requireUserVerification a.expectedExtensions
  verify env cd.publicKey (← response.signature) (raw ++ clientDataHash)
  checkSignCount cd.signatureCount ad.signCount a.ignoreCloneError
  return { credential := a.credential, authData := ad, user, rp }

/-- `handle_credential_assertion` (backends.py 232-457), with that. -/
def handleAssertion {σ : Type} (env : Env) (reg : Registrar σ) (a : AssertionArgs)
    (s : σ) : Py Unit × σ :=
  match assertionPre env a with
  | .error e => (finalise (.error e), s)
  | .ok allowed =>
    let (r, s1) := reg.getCredentialData a.credential.rawId s
    match checkRead r with
    | .error e => (finalise (.error e), s1)
    | .ok cd =>
      match assertionChecks env a allowed cd with
      | .error e => (finalise (.error e), s1)
      | .ok record =>
        let (w, s2) := reg.registerAssertion record s1
        (finalise (checkWrite w), s2)

/-- A counter of zero is as none. -/
def withoutZero (cd : CredentialData) : CredentialData :=
  { cd with signatureCount := cd.signatureCount.filter (· ≠ 0) }

/-- The registrar tells of no counter instead of zero. -/
def withoutZeros {σ : Type} (reg : Registrar σ) : Registrar σ :=
  { reg with getCredentialData := fun id s =>
      ((reg.getCredentialData id s).1.map (Option.map withoutZero), (reg.getCredentialData id s).2) }

end Counterless

namespace Flask

/-- Any package, in front of registrars like that. -/
def counterless (pkg : Package) : Package :=
  ⟨pkg.attestation, fun reg => pkg.assertion (Counterless.withoutZeros reg)⟩

/-- The package with the changed line. -/
def counterlessPackage (env : Env) : Package := ⟨handleAttestation env, Counterless.handleAssertion env⟩

end Flask

end WebAuthn
