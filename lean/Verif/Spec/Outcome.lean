import Verif.Spec.Exceptions
import Verif.Spec.Failure

/-!
# The outcome of every ceremony

For all arguments, all answers of the dependencies and all behaviours of the
registrar: which exception a stage raises, and what the caller and the registrar
see in the end.  Unlike `Spec/Failure.lean` nothing is assumed to be well formed.
-/

namespace WebAuthn.Spec

/-! ## Origins -/

/-- A URL scheme: a letter, then letters, digits, `+`, `-` and `.`. -/
def SchemeName (s : List Char) : Prop :=
  (∃ c l, s = c :: l ∧ (('A' ≤ c ∧ c ≤ 'Z') ∨ ('a' ≤ c ∧ c ≤ 'z'))) ∧
  ∀ c ∈ s, ('A' ≤ c ∧ c ≤ 'Z') ∨ ('a' ≤ c ∧ c ≤ 'z') ∨ ('0' ≤ c ∧ c ≤ '9') ∨
    c = '+' ∨ c = '-' ∨ c = '.'

/-- The text splits into a scheme (empty if there is none) and the rest. -/
inductive SchemeSplit : List Char → List Char → List Char → Prop
  | some (name scheme rest : List Char) : SchemeName name → LowerCase name scheme →
      SchemeSplit (name ++ ':' :: rest) scheme rest
  | none (text : List Char) : (∀ name rest, text = name ++ ':' :: rest → ¬ SchemeName name) →
      SchemeSplit text [] text

/-- `urllib` raises `ValueError` for the origin: its authority has bad brackets
or bad characters, or (only looked at when everything else is fine) a bad port. -/
def UrlRaises (env : Env) (s : String) : Prop :=
  (∃ a b, s.toList = a ++ ':' :: '/' :: '/' :: b) ∧
  ∃ text scheme netloc tail,
    Cleaned s.toList text ∧ SchemeSplit text scheme ('/' :: '/' :: netloc ++ tail) ∧
    (∀ c ∈ netloc, c ≠ '/' ∧ c ≠ '?' ∧ c ≠ '#') ∧
    (∀ c, tail.head? = some c → c = '/' ∨ c = '?' ∨ c = '#') ∧
    (¬ NetlocOk env netloc ∨
      netloc ≠ [] ∧ (scheme = "http".toList ∨ scheme = "https".toList) ∧
      (tail = [] ∨ tail = ['?'] ∨ tail = ['#'] ∨ tail = ['?', '#']) ∧
      ∀ p, ¬ PortOf netloc 0 p)

/-- The string is not an origin. -/
inductive OriginRefused (env : Env) (s : String) : Exc → Prop
  | notOrigin : ¬ UrlRaises env s → (∀ o, ¬ OriginOf env s o) → OriginRefused env s (.lib .origin)
  | raises : UrlRaises env s → OriginRefused env s .valueError

/-- The expected origins are not usable: there is none, or the first bad one. -/
inductive ExpectedRefused (env : Env) (e : ExpectedOrigin) : Exc → Prop
  | empty : originList e = [] → ExpectedRefused env e (.lib .origin)
  | bad (pre : List String) (s : String) (post : List String) (x : Exc) :
      originList e = pre ++ s :: post → (∀ t ∈ pre, ∃ o, OriginOf env t o) →
      OriginRefused env s x → ExpectedRefused env e x

/-! ## Client data -/

/-- The bytes are not client data. -/
inductive ClientDataRefused (env : Env) (cdj : Bytes) : Exc → Prop
  | notText : (∀ t, ¬ Utf8 cdj t) → ClientDataRefused env cdj (.lib .decoding)
  | notJson (t : String) (e x : Exc) : Utf8 cdj t → env.jsonLoads t = .error e →
      Translated [.UnicodeDecodeError, .JSONDecodeError] .decoding e x →
      ClientDataRefused env cdj x
  | notClientData (t : String) (v : PyVal) : Utf8 cdj t → env.jsonLoads t = .ok v →
      (∀ cd, ¬ ClientDataOf env cdj cd) → ClientDataRefused env cdj (.lib .parser)

/-- The client data are refused. -/
inductive ClientRefused (env : Env) (cdj : Bytes) (type : String) (challenge : Bytes)
    (expected : ExpectedOrigin) (tb : Option TokenBinding) : Exc → Prop
  | notClientData (x : Exc) : ClientDataRefused env cdj x →
      ClientRefused env cdj type challenge expected tb x
  | notOrigin (cd : ClientData) (x : Exc) : ClientDataOf env cdj cd → cd.type = type →
      Base64UrlText cd.challenge challenge → OriginRefused env cd.origin x →
      ClientRefused env cdj type challenge expected tb x
  | check (x : LibErr) : ClientFails env cdj type challenge expected tb x →
      ClientRefused env cdj type challenge expected tb (.lib x)

/-! ## Authenticator data -/

/-- `b` is AAGUID (16 bytes), length (2 bytes), a credential id of that length,
and `tail`. -/
def AttestedHead (b tail : Bytes) : Prop :=
  ∃ aaguid len cid, b = aaguid ++ len ++ cid ++ tail ∧ aaguid.length = 16 ∧ len.length = 2 ∧
    BigEndian len cid.length

/-- What becomes of an exception of `cbor2.load` in a block of the authenticator
data. -/
def CborTranslated (e x : Exc) : Prop :=
  ∃ y, Translated [.CBORDecodeError] .decoding e y ∧ Translated [.EOFError] .parser y x

/-- The bytes do not start with attested credential data. -/
inductive AttestedRefused (env : Env) (b : Bytes) : Exc → Prop
  | short : (∀ tail, ¬ AttestedHead b tail) → AttestedRefused env b (.lib .parser)
  | notCbor (tail : Bytes) (e x : Exc) : AttestedHead b tail → env.cborLoad tail = .error e →
      CborTranslated e x → AttestedRefused env b x
  | notKey (tail rest : Bytes) (v : PyVal) : AttestedHead b tail →
      env.cborLoad tail = .ok (v, rest) → (∀ d k, v = .dict d → ¬ CoseKeyOf d k) →
      AttestedRefused env b (.lib .parser)
  | inconsistent (tail rest : Bytes) (d : Dict) (k : CPK) : AttestedHead b tail →
      env.cborLoad tail = .ok (.dict d, rest) → CoseKeyOf d k → ¬ KeyConsistent k →
      AttestedRefused env b (.lib .validation)

/-- The bytes do not start with extension outputs. -/
inductive ExtDataRefused (env : Env) (b : Bytes) : Exc → Prop
  | notCbor (e x : Exc) : env.cborLoad b = .error e → CborTranslated e x → ExtDataRefused env b x
  | notExtensions (rest : Bytes) (v : PyVal) : env.cborLoad b = .ok (v, rest) →
      (∀ d e, v = .dict d → ¬ ExtensionsOf d e) → ExtDataRefused env b (.lib .parser)

/-- `raw` is a 32 byte hash, one flag byte, a 4 byte counter and `body`. -/
def AuthHead (raw : Bytes) (flags : UInt8) (body : Bytes) : Prop :=
  ∃ hash count, raw = hash ++ [flags] ++ count ++ body ∧ hash.length = 32 ∧ count.length = 4

/-- The bytes are not authenticator data. -/
inductive AuthDataRefused (env : Env) (raw : Bytes) : Exc → Prop
  | short : raw.length < 37 → AuthDataRefused env raw (.lib .parser)
  | attested (flags : UInt8) (body : Bytes) (x : Exc) : AuthHead raw flags body →
      flags.toNat.testBit 6 = true → AttestedRefused env body x → AuthDataRefused env raw x
  | extensions (flags : UInt8) (body mid : Bytes) (a : Option AttestedCredentialData) (x : Exc) :
      AuthHead raw flags body → Block flags 6 (AttestedOf env) body mid a →
      flags.toNat.testBit 7 = true → ExtDataRefused env mid x → AuthDataRefused env raw x
  | trailing (flags : UInt8) (body mid rest : Bytes) (a : Option AttestedCredentialData)
      (e : Option Extensions) : AuthHead raw flags body →
      Block flags 6 (AttestedOf env) body mid a → Block flags 7 (ExtDataOf env) mid rest e →
      rest ≠ [] → AuthDataRefused env raw (.lib .parser)

/-! ## Attestation objects -/

/-- The map has the three members of an attestation object: authenticator data
bytes, the name of a format, and any statement. -/
def AttObjMembers (v : PyVal) (raw : Bytes) (fmt : Fmt) (stmt : PyVal) : Prop :=
  ∃ d, v = .dict d ∧ Lookup d (.str "authData") (.bytes raw) ∧
    Lookup d (.str "fmt") (.str (fmtCode fmt)) ∧ Lookup d (.str "attStmt") stmt

/-- The bytes are not an attestation object. -/
inductive AttObjRefused (env : Env) (b : Bytes) : Exc → Prop
  | notCbor (e x : Exc) : env.cborLoad b = .error e → Translated [.CBORDecodeError] .decoding e x →
      AttObjRefused env b x
  | notObject (v : PyVal) (rest : Bytes) : env.cborLoad b = .ok (v, rest) →
      (∀ raw fmt stmt, ¬ AttObjMembers v raw fmt stmt) → AttObjRefused env b (.lib .parser)
  | authData (v : PyVal) (rest raw : Bytes) (fmt : Fmt) (stmt : PyVal) (e x : Exc) :
      env.cborLoad b = .ok (v, rest) → AttObjMembers v raw fmt stmt → AuthDataRefused env raw e →
      Translated [.KeyError] .parser e x → AttObjRefused env b x
  | notStatement (v : PyVal) (rest raw : Bytes) (fmt : Fmt) (stmt : PyVal) (ad : AuthData) :
      env.cborLoad b = .ok (v, rest) → AttObjMembers v raw fmt stmt → AuthDataOf env raw ad →
      (∀ sd s, stmt = .dict sd → ¬ AttStmtOf fmt sd s) → AttObjRefused env b (.lib .parser)

/-! ## Signatures -/

/-- The credential key denotes no public key object. -/
inductive KeyRefused (env : Env) : CPK → Exc → Prop
  | otherCurve (b : KeyBase) (x y : Bytes) (crv : NV Curve) : (∀ c, ¬ NistCurve crv.id c) →
      KeyRefused env (.ec2 b x y crv) (.lib .unimplemented)
  | point (b : KeyBase) (x y : Bytes) (crv : NV Curve) (c : CurveClass) (nx ny : Nat)
      (e z : Exc) : NistCurve crv.id c → BigEndian x nx → BigEndian y ny →
      env.ecPoint c nx ny = .error e → Translated [.ValueError] .publicKeyConversion e z →
      KeyRefused env (.ec2 b x y crv) z
  | otherEdwards (b : KeyBase) (x : Bytes) (crv : NV Curve) : ¬ IsOkpCurve crv.id →
      KeyRefused env (.okp b crv x) (.lib .unimplemented)
  | ed25519 (b : KeyBase) (x : Bytes) (crv : NV Curve) (e z : Exc) : crv.id = .ED25519 →
      env.ed25519Load x = .error e → Translated [.ValueError] .publicKeyConversion e z →
      KeyRefused env (.okp b crv x) z
  | ed448 (b : KeyBase) (x : Bytes) (crv : NV Curve) (e z : Exc) : crv.id = .ED448 →
      env.ed448Load x = .error e → Translated [.ValueError] .publicKeyConversion e z →
      KeyRefused env (.okp b crv x) z
  | base (b : KeyBase) : KeyRefused env (.base b) (.lib .unimplemented)

/-- The signature check fails. -/
inductive SignatureRefused (env : Env) : CPK → (sig data : Bytes) → Exc → Prop
  | key (k : CPK) (sig data : Bytes) (x : Exc) : KeyRefused env k x →
      SignatureRefused env k sig data x
  | noAlgorithm (b : KeyBase) (x y : Bytes) (crv : NV Curve) (pk : CryptoKey) (sig data : Bytes) :
      KeyOf env (.ec2 b x y crv) pk → b.alg = none →
      SignatureRefused env (.ec2 b x y crv) sig data (.lib .verification)
  | noHash (b : KeyBase) (x y : Bytes) (crv : NV Curve) (pk : CryptoKey) (alg : NV Alg)
      (sig data : Bytes) : KeyOf env (.ec2 b x y crv) pk → b.alg = some alg →
      (∀ h, ¬ EcdsaHash alg.id h) → SignatureRefused env (.ec2 b x y crv) sig data .assertionError
  | ecdsa (b : KeyBase) (x y : Bytes) (crv : NV Curve) (pk : CryptoKey) (alg : NV Alg)
      (h : HashAlg) (sig data : Bytes) (e z : Exc) : KeyOf env (.ec2 b x y crv) pk →
      b.alg = some alg → EcdsaHash alg.id h → env.ecdsaVerify pk h sig data = .error e →
      Translated [.InvalidSignature] .verification e z →
      SignatureRefused env (.ec2 b x y crv) sig data z
  | eddsa (b : KeyBase) (crv : NV Curve) (x : Bytes) (pk : CryptoKey) (sig data : Bytes)
      (e z : Exc) : KeyOf env (.okp b crv x) pk → env.eddsaVerify pk sig data = .error e →
      Translated [.InvalidSignature] .verification e z →
      SignatureRefused env (.okp b crv x) sig data z

/-! ## Attestation statements -/

/-- A statement that `handle_credential_attestation` does not accept.  Of the two
implemented formats the certificate is looked at; then the attester is handed a
key where it expects the attestation object (`AttributeError`). -/
inductive StatementRefused (env : Env) : AttStmt → Exc → Prop
  | unimplemented (s : AttStmt) : s ≠ .none → (∀ sig x5c, s ≠ .fidoU2F sig x5c) →
      (∀ alg sig x5c, s ≠ .androidKey alg sig x5c) → StatementRefused env s (.lib .unimplemented)
  | u2fPath (sig : Bytes) (x5c : List Bytes) : x5c.length ≠ 1 →
      StatementRefused env (.fidoU2F sig x5c) (.lib .attestation)
  | u2fCert (sig b : Bytes) (e x : Exc) : env.loadCert b = .error e →
      Translated [.ValueError] .attestation e x → StatementRefused env (.fidoU2F sig [b]) x
  | u2fCertKey (sig b : Bytes) (c : Cert) (e : Exc) : env.loadCert b = .ok c →
      c.publicKey = .error e → StatementRefused env (.fidoU2F sig [b]) e
  | u2fCurve (sig b : Bytes) (c : Cert) (pk : CryptoKey) : env.loadCert b = .ok c →
      c.publicKey = .ok pk → (∀ x y, pk ≠ .ec .SECP256R1 x y) →
      StatementRefused env (.fidoU2F sig [b]) (.lib .attestation)
  | u2f (sig b : Bytes) (c : Cert) (x y : Nat) : env.loadCert b = .ok c →
      c.publicKey = .ok (.ec .SECP256R1 x y) →
      StatementRefused env (.fidoU2F sig [b]) .attributeError
  | androidPath (alg : NV Alg) (sig : Bytes) :
      StatementRefused env (.androidKey alg sig []) (.lib .attestation)
  | androidCert (alg : NV Alg) (sig b : Bytes) (l : List Bytes) (e : Exc) :
      env.loadCert b = .error e → StatementRefused env (.androidKey alg sig (b :: l)) e
  | androidCertKey (alg : NV Alg) (sig b : Bytes) (l : List Bytes) (c : Cert) (e : Exc) :
      env.loadCert b = .ok c → c.publicKey = .error e →
      StatementRefused env (.androidKey alg sig (b :: l)) e
  | androidKind (alg : NV Alg) (sig b : Bytes) (l : List Bytes) (c : Cert) (n : Nat) :
      env.loadCert b = .ok c → c.publicKey = .ok (.other n) →
      StatementRefused env (.androidKey alg sig (b :: l)) (.lib .attestation)
  | android (alg : NV Alg) (sig b : Bytes) (l : List Bytes) (c : Cert) (pk : CryptoKey) :
      env.loadCert b = .ok c → c.publicKey = .ok pk → (∀ n, pk ≠ .other n) →
      StatementRefused env (.androidKey alg sig (b :: l)) .attributeError

/-! ## Registration -/

/-- The client data bytes of a response of either kind. -/
def ClientBytes (r : Response) (cdj : Bytes) : Prop :=
  (∃ ob, r = .attestation cdj ob) ∨ ∃ raw sig handle, r = .assertion cdj raw sig handle

/-- A registration is refused, with the exception before it is reported. -/
inductive RegistrationRefused (env : Env) (a : AttestationArgs) : Exc → Prop
  | expected (x : Exc) : ExpectedRefused env a.expectedOrigin x → RegistrationRefused env a x
  | client (cdj : Bytes) (x : Exc) : ExpectedOk env a.expectedOrigin →
      ClientBytes a.credential.response cdj →
      ClientRefused env cdj "webauthn.create" a.expectedChallenge a.expectedOrigin a.tokenBinding
        x → RegistrationRefused env a x
  | wrongResponse (cdj raw sig : Bytes) (handle : Option Bytes) : ExpectedOk env a.expectedOrigin →
      a.credential.response = .assertion cdj raw sig handle →
      ClientOk env cdj "webauthn.create" a.expectedChallenge a.expectedOrigin a.tokenBinding →
      RegistrationRefused env a .attributeError
  | object (cdj ob : Bytes) (x : Exc) : ExpectedOk env a.expectedOrigin →
      a.credential.response = .attestation cdj ob →
      ClientOk env cdj "webauthn.create" a.expectedChallenge a.expectedOrigin a.tokenBinding →
      AttObjRefused env ob x → RegistrationRefused env a x
  | authData (cdj ob raw : Bytes) (o : AttestationObject) (x : LibErr) :
      ExpectedOk env a.expectedOrigin → a.credential.response = .attestation cdj ob →
      ClientOk env cdj "webauthn.create" a.expectedChallenge a.expectedOrigin a.tokenBinding →
      AttObjOf env ob o raw →
      AuthFails env raw o.authData a.rp.id a.requireUserVerification a.expectedExtensions x →
      RegistrationRefused env a (.lib x)
  | notAttested (cdj ob raw : Bytes) (o : AttestationObject) : ExpectedOk env a.expectedOrigin →
      a.credential.response = .attestation cdj ob →
      ClientOk env cdj "webauthn.create" a.expectedChallenge a.expectedOrigin a.tokenBinding →
      AttObjOf env ob o raw →
      AuthOk env raw o.authData a.rp.id a.requireUserVerification a.expectedExtensions →
      o.authData.attested = none → RegistrationRefused env a .assertionError
  | statement (o : AttestationObject) (raw : Bytes) (x : Exc) : ExpectedOk env a.expectedOrigin →
      AttestationOk env a o raw → StatementRefused env o.attStmt x → RegistrationRefused env a x

/-- What the caller sees of a write of the registrar. -/
inductive Wrote : Py (Option String) → Py Unit → Prop
  | done : Wrote (.ok none) (.ok ())
  | refused (m : String) : Wrote (.ok (some m)) (.error (.lib .registration))
  | raised (e : Exc) : IsInstance e .Exception → Wrote (.error e) (.error (.lib .registration))
  | passes (e : Exc) : ¬ IsInstance e .Exception → Wrote (.error e) (.error e)

/-- The outcome of a registration: the result for the caller and the state of the
registrar. -/
inductive RegistrationOutcome {σ : Type} (env : Env) (reg : Registrar σ) (a : AttestationArgs)
    (s : σ) : Py Unit → σ → Prop
  | refused (x y : Exc) : RegistrationRefused env a x → Reported x y →
      RegistrationOutcome env reg a s (.error y) s
  | written (o : AttestationObject) (raw : Bytes) (w : Py (Option String)) (s' : σ)
      (r : Py Unit) : ExpectedOk env a.expectedOrigin → AttestationOk env a o raw →
      o.attStmt = .none →
      reg.registerAttestation ⟨a.credential, o, .NONE, a.user, a.rp, none⟩ s = (w, s') →
      Wrote w r → RegistrationOutcome env reg a s r s'

/-! ## Authentication -/

/-- An authentication is refused before the registrar is asked. -/
inductive EarlyRefused (env : Env) (a : AssertionArgs) : Exc → Prop
  | expected (x : Exc) : ExpectedRefused env a.expectedOrigin x → EarlyRefused env a x
  | notAllowed : ExpectedOk env a.expectedOrigin →
      ¬ AllowOk a.allowCredentials a.credential.rawId →
      EarlyRefused env a (.lib .credentialNotAllowed)

/-- An authentication with a stored credential `cd` is refused. -/
inductive AuthenticationRefused (env : Env) (a : AssertionArgs) (cd : CredentialData) :
    Exc → Prop
  | wrongUser (cdj ob : Bytes) (u : UserEntity) : a.credential.response = .attestation cdj ob →
      a.user = some u → u.id ≠ cd.user.id → AuthenticationRefused env a cd (.lib .userId)
  | wrongResponse (cdj ob : Bytes) : a.credential.response = .attestation cdj ob →
      (∀ u, a.user = some u → u.id = cd.user.id) → AuthenticationRefused env a cd .attributeError
  | client (cdj raw sig : Bytes) (handle : Option Bytes) (u : UserEntity) (rp : RpEntity)
      (x : Exc) : a.credential.response = .assertion cdj raw sig handle →
      UserOk cd.user a.user handle u → RpOk cd.rp a.rp rp →
      ClientRefused env cdj "webauthn.get" a.expectedChallenge a.expectedOrigin a.tokenBinding x →
      AuthenticationRefused env a cd x
  | authData (cdj raw sig : Bytes) (handle : Option Bytes) (u : UserEntity) (rp : RpEntity)
      (x : Exc) : a.credential.response = .assertion cdj raw sig handle →
      UserOk cd.user a.user handle u → RpOk cd.rp a.rp rp →
      ClientOk env cdj "webauthn.get" a.expectedChallenge a.expectedOrigin a.tokenBinding →
      AuthDataRefused env raw x → AuthenticationRefused env a cd x
  | signature (cdj raw sig : Bytes) (handle : Option Bytes) (u : UserEntity) (rp : RpEntity)
      (ad : AuthData) (x : Exc) : a.credential.response = .assertion cdj raw sig handle →
      UserOk cd.user a.user handle u → RpOk cd.rp a.rp rp →
      ClientOk env cdj "webauthn.get" a.expectedChallenge a.expectedOrigin a.tokenBinding →
      AuthOk env raw ad rp.id a.requireUserVerification a.expectedExtensions →
      SignatureRefused env cd.publicKey sig (raw ++ env.sha256 cdj) x →
      AuthenticationRefused env a cd x
  | check (cdj raw sig : Bytes) (handle : Option Bytes) (x : LibErr) :
      a.credential.response = .assertion cdj raw sig handle →
      AssertionFails env a cd cdj raw sig handle x → AuthenticationRefused env a cd (.lib x)

/-- What the registrar's answer to the look-up leads to, if not to a stored
credential. -/
inductive NotFound : Py (Option CredentialData) → Exc → Prop
  | unknown : NotFound (.ok none) (.lib .credentialData)
  | raised (e : Exc) : IsInstance e .Exception → NotFound (.error e) (.lib .registration)
  | passes (e : Exc) : ¬ IsInstance e .Exception → NotFound (.error e) e

/-- The outcome of an authentication: the result for the caller and the state of
the registrar. -/
inductive AuthenticationOutcome {σ : Type} (env : Env) (reg : Registrar σ) (a : AssertionArgs)
    (s : σ) : Py Unit → σ → Prop
  | early (x y : Exc) : EarlyRefused env a x → Reported x y →
      AuthenticationOutcome env reg a s (.error y) s
  | notFound (f : Py (Option CredentialData)) (s1 : σ) (x : Exc) :
      ExpectedOk env a.expectedOrigin → AllowOk a.allowCredentials a.credential.rawId →
      reg.getCredentialData a.credential.rawId s = (f, s1) → NotFound f x →
      AuthenticationOutcome env reg a s (.error x) s1
  | refused (cd : CredentialData) (s1 : σ) (x y : Exc) :
      ExpectedOk env a.expectedOrigin → AllowOk a.allowCredentials a.credential.rawId →
      reg.getCredentialData a.credential.rawId s = (.ok (some cd), s1) →
      AuthenticationRefused env a cd x → Reported x y →
      AuthenticationOutcome env reg a s (.error y) s1
  | written (cd : CredentialData) (s1 s2 : σ) (u : UserEntity) (rp : RpEntity) (ad : AuthData)
      (w : Py (Option String)) (r : Py Unit) :
      ExpectedOk env a.expectedOrigin → AllowOk a.allowCredentials a.credential.rawId →
      reg.getCredentialData a.credential.rawId s = (.ok (some cd), s1) →
      AssertionOk env a cd u rp ad →
      reg.registerAssertion ⟨a.credential, ad, u, rp⟩ s1 = (w, s2) →
      Wrote w r → AuthenticationOutcome env reg a s r s2

end WebAuthn.Spec
