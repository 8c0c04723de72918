import Verif.Props.Demo

/-!
# What an accepted ceremony guarantees (C01 - C13), and exactly when one is
accepted (C17, C18)

Each theorem is followed by an example in the world of `Props/Demo.lean`, or a
reference to one.
-/

namespace WebAuthn.Props

open WebAuthn WebAuthn.Spec

section
variable {σ : Type} {env : Env} {reg : Registrar σ}

/-! ## C17, C18 -/

/-- C17: authentication accepts exactly the valid responses.  `AssertionOk` is
spelled out in `Spec/Ceremony.lean`. -/
theorem C17_authentication_accepts_exactly {a : AssertionArgs} {s s' : σ} :
    handleAssertion env reg a s = (.ok (), s') ↔
      ExpectedOk env a.expectedOrigin ∧ AllowOk a.allowCredentials a.credential.rawId ∧
      ∃ cd s1 user rp ad,
        reg.getCredentialData a.credential.rawId s = (.ok (some cd), s1) ∧
        AssertionOk env a cd user rp ad ∧
        reg.registerAssertion ⟨a.credential, ad, user, rp⟩ s1 = (.ok none, s') :=
  assertion_accepts

example : handleAssertion Demo.env Demo.registrar Demo.authArgs [(Demo.credId, Demo.stored 1)] =
    (.ok (), [(Demo.credId, Demo.stored 2), (Demo.credId, Demo.stored 1)]) :=
  Demo.authentication_ok []

/-- C18 without the attestation statement formats: registration through the
backend accepts exactly the valid responses with a `none` statement.  Missing
against C18: statements of the other formats, all of which are refused
(`C19_supported_formats_refuted`). -/
theorem C18_registration_accepts_exactly_partial {a : AttestationArgs} {s s' : σ} :
    handleAttestation env reg a s = (.ok (), s') ↔
      ExpectedOk env a.expectedOrigin ∧
      ∃ o raw, AttestationOk env a o raw ∧ o.attStmt = .none ∧
        reg.registerAttestation ⟨a.credential, o, .NONE, a.user, a.rp, none⟩ s = (.ok none, s') :=
  attestation_accepts

example : handleAttestation Demo.env Demo.registrar Demo.regArgs [] =
    (.ok (), [(Demo.credId, Demo.stored 1)]) := Demo.registration_ok [] rfl

/-! ## C01 -/

/-- C01: success means that the key stored for the presented raw id verified the
signature of the response over `authenticatorData ‖ SHA-256(clientDataJSON)`. -/
theorem C01_signature_required {a : AssertionArgs} {s s' : σ}
    (h : handleAssertion env reg a s = (.ok (), s')) :
    ∃ cd s1 cdj raw sig handle,
      reg.getCredentialData a.credential.rawId s = (.ok (some cd), s1) ∧
      a.credential.response = .assertion cdj raw sig handle ∧
      SignedBy env cd.publicKey sig (raw ++ env.sha256 cdj) := by
  obtain ⟨-, -, cd, s1, user, rp, ad, h1, ⟨cdj, raw, sig, hd, h2, -, -, -, -, h3, -⟩, -⟩ :=
    assertion_accepts.mp h
  exact ⟨cd, s1, cdj, raw, sig, hd, h1, h2, h3⟩

/-- C01, contrapositive for forgers: if no key in the registrar verifies what is
presented, authentication fails. -/
theorem C01_no_signature_no_login {a : AssertionArgs} {s : σ} {cdj raw sig : Bytes}
    {handle : Option Bytes} (hr : a.credential.response = .assertion cdj raw sig handle)
    (hno : ∀ cd s1, reg.getCredentialData a.credential.rawId s = (.ok (some cd), s1) →
      ¬ SignedBy env cd.publicKey sig (raw ++ env.sha256 cdj)) :
    ∃ e s', handleAssertion env reg a s = (.error e, s') := by
  obtain ⟨r, s', hh⟩ : ∃ r s', handleAssertion env reg a s = (r, s') := ⟨_, _, rfl⟩
  cases r with
  | error e => exact ⟨e, s', hh⟩
  | ok u =>
    obtain ⟨cd, s1, cdj', raw', sig', hd', h1, h2, h3⟩ := C01_signature_required hh
    rw [hr] at h2
    cases h2
    exact absurd h3 (hno cd s1 h1)

/-! ## C02 -/

/-- C02, registration. -/
theorem C02_type_registration {a : AttestationArgs} {s s' : σ}
    (h : handleAttestation env reg a s = (.ok (), s')) :
    ∃ cdj ob d, a.credential.response = .attestation cdj ob ∧ ClientJson env cdj d ∧
      Lookup d (.str "type") (.str "webauthn.create") := by
  obtain ⟨-, o, raw, ⟨cdj, ob, h1, ⟨cd, ⟨d, h2, h3, -⟩, h4, -⟩, -⟩, -⟩ := attestation_accepts.mp h
  exact ⟨cdj, ob, d, h1, h2, by rw [← h4]; exact h3⟩

/-- C02, authentication. -/
theorem C02_type_authentication {a : AssertionArgs} {s s' : σ}
    (h : handleAssertion env reg a s = (.ok (), s')) :
    ∃ cdj raw sig handle d, a.credential.response = .assertion cdj raw sig handle ∧
      ClientJson env cdj d ∧ Lookup d (.str "type") (.str "webauthn.get") := by
  obtain ⟨-, -, cd, s1, user, rp, ad, -, ⟨cdj, raw, sig, hd, h1, -, -, ⟨c, ⟨d, h2, h3, -⟩, h4, -⟩, -⟩,
    -⟩ := assertion_accepts.mp h
  exact ⟨cdj, raw, sig, hd, d, h1, h2, by rw [← h4]; exact h3⟩

theorem utf8_inj {b : Bytes} {s t : String} (h : Utf8 b s) (h' : Utf8 b t) : s = t := by
  unfold Utf8 at h h'
  rw [h] at h'
  have h1 := Array.toList_inj.mp h'
  have h2 : s.toUTF8 = t.toUTF8 := by
    cases hs : s.toUTF8; cases ht : t.toUTF8
    rw [hs, ht] at h1
    simp only at h1
    rw [h1]
  exact String.toByteArray_inj.mp h2

theorem clientJson_unique {cdj : Bytes} {d d' : Dict} (h : ClientJson env cdj d)
    (h' : ClientJson env cdj d') : d = d' := by
  obtain ⟨t, h1, h2⟩ := h
  obtain ⟨t', h1', h2'⟩ := h'
  rw [utf8_inj h1 h1', h2'] at h2
  simpa using h2.symm

/-- C02: one client data value is never accepted by both ceremonies, whatever the
other arguments, registrars and states. -/
theorem C02_no_cross_ceremony {σ' : Type} {reg' : Registrar σ'} {a : AttestationArgs}
    {b : AssertionArgs} {s s' : σ} {t t' : σ'}
    (h : handleAttestation env reg a s = (.ok (), s'))
    (h' : handleAssertion env reg' b t = (.ok (), t')) :
    ∀ cdj ob cdj' raw sig handle, a.credential.response = .attestation cdj ob →
      b.credential.response = .assertion cdj' raw sig handle → cdj ≠ cdj' := by
  rintro cdj ob cdj' raw sig handle e1 e2 rfl
  obtain ⟨c, o, d, f1, f2, f3⟩ := C02_type_registration h
  obtain ⟨c', r', s', hd', d', g1, g2, g3⟩ := C02_type_authentication h'
  rw [e1] at f1
  rw [e2] at g1
  cases f1
  cases g1
  have := clientJson_unique f2 g2
  subst this
  have := lookup_unique f3 g3
  simp at this

example : ∀ cdj ob cdj' raw sig handle, Demo.regArgs.credential.response = .attestation cdj ob →
    Demo.authArgs.credential.response = .assertion cdj' raw sig handle → cdj ≠ cdj' :=
  C02_no_cross_ceremony (Demo.registration_ok [] rfl) (Demo.authentication_ok [])

/-! ## C03 -/

/-- C03, registration. -/
theorem C03_challenge_registration {a : AttestationArgs} {s s' : σ}
    (h : handleAttestation env reg a s = (.ok (), s')) :
    ∃ cdj ob d text, a.credential.response = .attestation cdj ob ∧ ClientJson env cdj d ∧
      Lookup d (.str "challenge") (.str text) ∧ Base64UrlText text a.expectedChallenge := by
  obtain ⟨-, o, raw, ⟨cdj, ob, h1, ⟨cd, ⟨d, h2, -, h3, -⟩, -, h4, -⟩, -⟩, -⟩ :=
    attestation_accepts.mp h
  exact ⟨cdj, ob, d, _, h1, h2, h3, h4⟩

/-- C03, authentication. -/
theorem C03_challenge_authentication {a : AssertionArgs} {s s' : σ}
    (h : handleAssertion env reg a s = (.ok (), s')) :
    ∃ cdj raw sig handle d text, a.credential.response = .assertion cdj raw sig handle ∧
      ClientJson env cdj d ∧ Lookup d (.str "challenge") (.str text) ∧
      Base64UrlText text a.expectedChallenge := by
  obtain ⟨-, -, cd, s1, user, rp, ad, -, ⟨cdj, raw, sig, hd, h1, -, -,
    ⟨c, ⟨d, h2, -, h3, -⟩, -, h4, -⟩, -⟩, -⟩ := assertion_accepts.mp h
  exact ⟨cdj, raw, sig, hd, d, _, h1, h2, h3, h4⟩

/-- C03: the client data fixes the challenge: two accepted calls with the same
client data had the same expected challenge. -/
theorem C03_challenge_unique {a a' : AssertionArgs} {s s' t t' : σ}
    (h : handleAssertion env reg a s = (.ok (), s'))
    (h' : handleAssertion env reg a' t = (.ok (), t'))
    (hc : a.credential.response.clientDataJSON = a'.credential.response.clientDataJSON) :
    a.expectedChallenge = a'.expectedChallenge := by
  obtain ⟨c, r, sg, hd, d, x, f1, f2, f3, f4⟩ := C03_challenge_authentication h
  obtain ⟨c', r', sg', hd', d', x', g1, g2, g3, g4⟩ := C03_challenge_authentication h'
  rw [f1, g1] at hc
  simp only [Response.clientDataJSON] at hc
  subst hc
  have := clientJson_unique f2 g2
  subst this
  have := lookup_unique f3 g3
  simp only [PyVal.str.injEq] at this
  subst this
  rw [← urlBase64Decode_ok_iff] at f4 g4
  rw [f4] at g4
  simpa using g4

/-! ## C04 -/

/-- C04, registration. -/
theorem C04_origin_registration {a : AttestationArgs} {s s' : σ}
    (h : handleAttestation env reg a s = (.ok (), s')) :
    ∃ cdj ob d text o, a.credential.response = .attestation cdj ob ∧ ClientJson env cdj d ∧
      Lookup d (.str "origin") (.str text) ∧ OriginOf env text o ∧
      ∃ e ∈ originList a.expectedOrigin, OriginOf env e o := by
  obtain ⟨-, o, raw, ⟨cdj, ob, h1, ⟨cd, ⟨d, h2, -, -, h3, -⟩, -, -, ⟨o', h4, h5⟩, -⟩, -⟩, -⟩ :=
    attestation_accepts.mp h
  exact ⟨cdj, ob, d, _, o', h1, h2, h3, h4, h5⟩

/-- C04, authentication. -/
theorem C04_origin_authentication {a : AssertionArgs} {s s' : σ}
    (h : handleAssertion env reg a s = (.ok (), s')) :
    ∃ cdj raw sig handle d text o, a.credential.response = .assertion cdj raw sig handle ∧
      ClientJson env cdj d ∧ Lookup d (.str "origin") (.str text) ∧ OriginOf env text o ∧
      ∃ e ∈ originList a.expectedOrigin, OriginOf env e o := by
  obtain ⟨-, -, cd, s1, user, rp, ad, -, ⟨cdj, raw, sig, hd, h1, -, -,
    ⟨c, ⟨d, h2, -, -, h3, -⟩, -, -, ⟨o', h4, h5⟩, -⟩, -⟩, -⟩ := assertion_accepts.mp h
  exact ⟨cdj, raw, sig, hd, d, _, o', h1, h2, h3, h4, h5⟩

/-- C04: no expected origins is an `OriginError`, before anything else. -/
theorem C04_empty_expectation {a : AttestationArgs} {b : AssertionArgs} {s : σ}
    (ha : a.expectedOrigin = .many []) (hb : b.expectedOrigin = .many []) :
    handleAttestation env reg a s = (.error (.lib .origin), s) ∧
    handleAssertion env reg b s = (.error (.lib .origin), s) := by
  constructor
  · have : attestationChecks env a = .error (.lib .origin) := by
      unfold attestationChecks
      rw [ha]
      rfl
    simp only [handleAttestation, this]
    rfl
  · have : assertionPre env b = .error (.lib .origin) := by
      unfold assertionPre
      rw [hb]
      rfl
    rw [handleAssertion_pre this]
    rfl

theorem finalise_error_exists {α : Type} (x : Exc) {s : σ} :
    ∃ e, ((finalise (.error x) : Py α), s) = (.error e, s) := by
  unfold finalise
  by_cases h1 : x.isWebAuthn = true
  · exact ⟨x, by simp [h1]⟩
  by_cases h2 : x.isException = true
  · exact ⟨.lib .internal, by simp [h1, h2, raise]⟩
  · exact ⟨x, by simp [h1, h2]⟩

/-- C04: one malformed expected origin fails the call; the registrar is not
called. -/
theorem C04_malformed_expectation {a : AttestationArgs} {b : AssertionArgs} {s : σ}
    {e e' : String} (he : e ∈ originList a.expectedOrigin) (hno : ¬ ∃ o, OriginOf env e o)
    (he' : e' ∈ originList b.expectedOrigin) (hno' : ¬ ∃ o, OriginOf env e' o) :
    (∃ x, handleAttestation env reg a s = (.error x, s)) ∧
    ∃ x, handleAssertion env reg b s = (.error x, s) := by
  have key : ∀ ex (e : String), e ∈ originList ex → (¬ ∃ o, OriginOf env e o) →
      ∃ x, extractAllowedOrigins env ex = .error x := by
    intro ex e he hno
    cases hx : extractAllowedOrigins env ex with
    | error x => exact ⟨x, rfl⟩
    | ok l => exact absurd ((expectedOk_iff.mpr ⟨l, hx⟩).2 e he) hno
  constructor
  · obtain ⟨x, hx⟩ := key _ e he hno
    have : attestationChecks env a = .error x := by
      unfold attestationChecks
      rw [hx]
      rfl
    simp only [handleAttestation, this]
    exact finalise_error_exists x
  · obtain ⟨x, hx⟩ := key _ e' he' hno'
    have : assertionPre env b = .error x := by
      unfold assertionPre
      rw [hx]
      rfl
    rw [handleAssertion_pre this]
    exact finalise_error_exists x

/-- An ftp origin is malformed. -/
example : ¬ ∃ o, OriginOf Demo.env "ftp://example.com" o := by
  rintro ⟨o, h⟩
  rw [← parseOrigin_ok_iff] at h
  have : parseOrigin Demo.env "ftp://example.com" = .error (.lib .origin) := by decide
  rw [this] at h
  cases h

/-! ## C05 -/

/-- C05, registration: bytes 0..31 of the authenticator data are the SHA-256 of
the RP id. -/
theorem C05_rp_hash_registration {a : AttestationArgs} {s s' : σ}
    (h : handleAttestation env reg a s = (.ok (), s')) :
    ∃ cdj ob o raw, a.credential.response = .attestation cdj ob ∧ AttObjOf env ob o raw ∧
      RpHashOk env raw a.rp.id := by
  obtain ⟨-, o, raw, ⟨cdj, ob, h1, -, h2, ⟨-, h3, -⟩, -⟩, -⟩ := attestation_accepts.mp h
  exact ⟨cdj, ob, o, raw, h1, h2, h3⟩

/-- C05, authentication, with the effective RP: the argument if given, else the
registered one. -/
theorem C05_rp_hash_authentication {a : AssertionArgs} {s s' : σ}
    (h : handleAssertion env reg a s = (.ok (), s')) :
    ∃ cd s1 cdj raw sig handle rp,
      reg.getCredentialData a.credential.rawId s = (.ok (some cd), s1) ∧
      a.credential.response = .assertion cdj raw sig handle ∧
      (a.rp = some rp ∨ a.rp = none ∧ cd.rp = some rp) ∧ RpHashOk env raw rp.id := by
  obtain ⟨-, -, cd, s1, user, rp, ad, h0, ⟨cdj, raw, sig, hd, h1, -, h2, -, ⟨-, h3, -⟩, -⟩, -⟩ :=
    assertion_accepts.mp h
  refine ⟨cd, s1, cdj, raw, sig, hd, rp, h0, h1, ?_, h3⟩
  generalize a.rp = ar at h2 ⊢
  generalize cd.rp = cr at h2 ⊢
  cases h2 with
  | arg => exact Or.inl rfl
  | registered => exact Or.inr ⟨rfl, rfl⟩
  | both => exact Or.inl rfl

/-! ## C06, C07 -/

/-- C06, registration. -/
theorem C06_user_presence_registration {a : AttestationArgs} {s s' : σ}
    (h : handleAttestation env reg a s = (.ok (), s')) :
    ∃ cdj ob o raw, a.credential.response = .attestation cdj ob ∧ AttObjOf env ob o raw ∧
      FlagSet raw 0 := by
  obtain ⟨-, o, raw, ⟨cdj, ob, h1, -, h2, ⟨-, -, h3, -⟩, -⟩, -⟩ := attestation_accepts.mp h
  exact ⟨cdj, ob, o, raw, h1, h2, h3⟩

/-- C06, authentication. -/
theorem C06_user_presence_authentication {a : AssertionArgs} {s s' : σ}
    (h : handleAssertion env reg a s = (.ok (), s')) :
    ∃ cdj raw sig handle, a.credential.response = .assertion cdj raw sig handle ∧
      FlagSet raw 0 := by
  obtain ⟨-, -, cd, s1, user, rp, ad, -, ⟨cdj, raw, sig, hd, h1, -, -, -, ⟨-, -, h3, -⟩, -⟩, -⟩ :=
    assertion_accepts.mp h
  exact ⟨cdj, raw, sig, hd, h1, h3⟩

/-- C07, registration. -/
theorem C07_user_verification_registration {a : AttestationArgs} {s s' : σ}
    (h : handleAttestation env reg a s = (.ok (), s')) (huv : a.requireUserVerification = true) :
    ∃ cdj ob o raw, a.credential.response = .attestation cdj ob ∧ AttObjOf env ob o raw ∧
      FlagSet raw 2 := by
  obtain ⟨-, o, raw, ⟨cdj, ob, h1, -, h2, ⟨-, -, -, h3, -⟩, -⟩, -⟩ := attestation_accepts.mp h
  exact ⟨cdj, ob, o, raw, h1, h2, h3 huv⟩

/-- C07, authentication. -/
theorem C07_user_verification_authentication {a : AssertionArgs} {s s' : σ}
    (h : handleAssertion env reg a s = (.ok (), s')) (huv : a.requireUserVerification = true) :
    ∃ cdj raw sig handle, a.credential.response = .assertion cdj raw sig handle ∧
      FlagSet raw 2 := by
  obtain ⟨-, -, cd, s1, user, rp, ad, -, ⟨cdj, raw, sig, hd, h1, -, -, -, ⟨-, -, -, h3, -⟩, -⟩,
    -⟩ := assertion_accepts.mp h
  exact ⟨cdj, raw, sig, hd, h1, h3 huv⟩

example : Demo.authArgs.requireUserVerification = true ∧
    Demo.regArgs.requireUserVerification = true := ⟨rfl, rfl⟩

/-- `raw'` is `raw` with bit 2 of byte 32 flipped. -/
def FlipsUV (raw raw' : Bytes) : Prop :=
  ∃ hash f f' rest, hash.length = 32 ∧ raw = hash ++ f :: rest ∧ raw' = hash ++ f' :: rest ∧
    (∀ i, i ≠ 2 → f.toNat.testBit i = f'.toNat.testBit i) ∧
    f.toNat.testBit 2 = !f'.toNat.testBit 2

theorem FlipsUV.symm {raw raw' : Bytes} (h : FlipsUV raw raw') : FlipsUV raw' raw := by
  obtain ⟨hash, f, f', rest, h1, h2, h3, h4, h5⟩ := h
  exact ⟨hash, f', f, rest, h1, h3, h2, fun i hi => (h4 i hi).symm, by rw [h5]; simp⟩

theorem block_congr {α : Type} {f f' : UInt8} {i : Nat} {R : Bytes → Bytes → α → Prop}
    {b rest : Bytes} {o : Option α} (h : f.toNat.testBit i = f'.toNat.testBit i) :
    Block f i R b rest o ↔ Block f' i R b rest o := by
  cases o <;> simp [Block, h]

theorem authOk_flip {raw raw' : Bytes} (hf : FlipsUV raw raw') {ad : AuthData} {rpId : String}
    {exts : Option (List ExtId)} (h : AuthOk env raw ad rpId false exts) :
    ∃ fl, AuthOk env raw' { ad with flags := fl } rpId false exts := by
  obtain ⟨hash, f, f', rest, h1, rfl, rfl, h4, h5⟩ := hf
  obtain ⟨⟨flags, count, body, mid, e, g1, g2, g3, g4, g5, g6⟩, hr, hu, -, hx⟩ := h
  have e' : hash ++ (f :: rest) = ad.rpIdHash ++ (flags :: (count ++ body)) := by
    rw [e]; simp
  obtain ⟨e1, e2⟩ := List.append_inj e' (by rw [h1, g1])
  simp only [List.cons.injEq] at e2
  obtain ⟨e2, e3⟩ := e2
  subst e1 e2 e3
  refine ⟨f'.toNat, ⟨f', count, body, mid, by simp, g1, rfl, g3, g4,
    (block_congr (h4 6 (by decide))).mp g5, (block_congr (h4 7 (by decide))).mp g6⟩, ?_, ?_,
    by simp, hx⟩
  · obtain ⟨b, hb, ht⟩ := hr
    refine ⟨b, hb, ?_⟩
    rw [← ht, List.take_append, List.take_append, h1]
    simp
  · obtain ⟨x, hx1, hx2⟩ := hu
    refine ⟨f', ?_, ?_⟩
    · simp [h1]
    · have : x = f := by
        rw [List.getElem?_append_right (by omega), h1] at hx1
        simpa using hx1.symm
      rw [← h4 0 (by decide), ← this]
      exact hx2

/-- Of two responses whose authenticator data differ in the UV bit only, and which
are both signed, one is valid iff the other is. -/
theorem assertionOk_flip {a a' : AssertionArgs} {cd : CredentialData}
    {user : UserEntity} {rp : RpEntity} {cdj raw raw' sig sig' : Bytes} {handle : Option Bytes}
    (huv : a.requireUserVerification = false) (hf : FlipsUV raw raw')
    (hr : a.credential.response = .assertion cdj raw sig handle)
    (ha' : a' = { a with credential := { a.credential with
      response := .assertion cdj raw' sig' handle } })
    (hsig : SignedBy env cd.publicKey sig (raw ++ env.sha256 cdj))
    (hsig' : SignedBy env cd.publicKey sig' (raw' ++ env.sha256 cdj)) :
    (∃ ad, AssertionOk env a cd user rp ad) ↔ ∃ ad, AssertionOk env a' cd user rp ad := by
  have hcount : ∀ {raw raw' : Bytes} {st : Option Int} {ig : Bool}, FlipsUV raw raw' →
      CounterOk st raw ig → CounterOk st raw' ig := by
    rintro raw raw' st ig ⟨hash, f, f', rest, h1, rfl, rfl, -, -⟩ h n hn hi
    obtain ⟨c, hc, hlt⟩ := h n hn hi
    refine ⟨c, ?_, hlt⟩
    have e : ∀ f : UInt8, List.drop 33 (hash ++ f :: rest) = rest := by
      intro f
      simp [List.drop_append, h1]
    rw [e] at hc ⊢
    exact hc
  have key : ∀ {b b' : AssertionArgs} {raw raw' sig sig' : Bytes},
      b.credential.response = .assertion cdj raw sig handle →
      b'.credential.response = .assertion cdj raw' sig' handle →
      b.requireUserVerification = false → b'.requireUserVerification = false →
      b'.user = b.user → b'.rp = b.rp → b'.expectedChallenge = b.expectedChallenge →
      b'.expectedOrigin = b.expectedOrigin → b'.tokenBinding = b.tokenBinding →
      b'.expectedExtensions = b.expectedExtensions → b'.ignoreCloneError = b.ignoreCloneError →
      FlipsUV raw raw' → SignedBy env cd.publicKey sig' (raw' ++ env.sha256 cdj) →
      (∃ ad, AssertionOk env b cd user rp ad) → ∃ ad, AssertionOk env b' cd user rp ad := by
    rintro b b' raw raw' sig sig' hb hb' hu hu' e1 e2 e3 e4 e5 e6 e7 hf hs
      ⟨ad, cdj1, raw1, sig1, hd1, h1, h2, h3, h4, h5, h6, h7⟩
    rw [hb] at h1
    cases h1
    rw [hu] at h5
    obtain ⟨fl, h5⟩ := authOk_flip hf h5
    refine ⟨{ ad with flags := fl }, cdj, raw', sig', handle, hb', ?_, ?_, ?_, ?_, hs, ?_⟩
    · rw [e1]; exact h2
    · rw [e2]; exact h3
    · rw [e3, e4, e5]; exact h4
    · rw [e6, hu']; exact h5
    · rw [e7]; exact hcount hf h7
  have hr' : a'.credential.response = .assertion cdj raw' sig' handle := by rw [ha']
  have huv' : a'.requireUserVerification = false := by rw [ha']; exact huv
  constructor
  · exact key hr hr' huv huv' (by rw [ha']) (by rw [ha']) (by rw [ha']) (by rw [ha']) (by rw [ha'])
      (by rw [ha']) (by rw [ha']) hf hsig'
  · exact key hr' hr huv' huv (by rw [ha']) (by rw [ha']) (by rw [ha']) (by rw [ha']) (by rw [ha'])
      (by rw [ha']) (by rw [ha']) hf.symm hsig

/-- C07, `False`: in authentication the UV bit has no influence.  For two responses
whose authenticator data differ in that bit only, and which are both signed, one is
accepted iff the other is, if the registrar takes what it is given. -/
theorem C07_user_verification_ignored {a a' : AssertionArgs} {s s1 : σ} {cd : CredentialData}
    {cdj raw raw' sig sig' : Bytes} {handle : Option Bytes}
    (huv : a.requireUserVerification = false) (hf : FlipsUV raw raw')
    (hr : a.credential.response = .assertion cdj raw sig handle)
    (ha' : a' = { a with credential := { a.credential with
      response := .assertion cdj raw' sig' handle } })
    (hget : reg.getCredentialData a.credential.rawId s = (.ok (some cd), s1))
    (hsig : SignedBy env cd.publicKey sig (raw ++ env.sha256 cdj))
    (hsig' : SignedBy env cd.publicKey sig' (raw' ++ env.sha256 cdj))
    (hreg : ∀ r t, ∃ t', reg.registerAssertion r t = (.ok none, t')) :
    (∃ s', handleAssertion env reg a s = (.ok (), s')) ↔
      ∃ s', handleAssertion env reg a' s = (.ok (), s') := by
  have key := fun user rp => assertionOk_flip (user := user) (rp := rp) huv hf hr ha' hsig hsig'
  have hid : a'.credential.rawId = a.credential.rawId := by rw [ha']
  have hex : a'.expectedOrigin = a.expectedOrigin := by rw [ha']
  have hal : a'.allowCredentials = a.allowCredentials := by rw [ha']
  simp only [assertion_accepts, hid, hex, hal]
  constructor
  · rintro ⟨s', h1, h2, cd', s1', user, rp, ad, h3, h4, h5⟩
    rw [hget] at h3
    cases h3
    obtain ⟨ad', h6⟩ := (key user rp).mp ⟨ad, h4⟩
    obtain ⟨t', h7⟩ := hreg ⟨a'.credential, ad', user, rp⟩ s1
    exact ⟨t', h1, h2, cd, s1, user, rp, ad', hget, h6, h7⟩
  · rintro ⟨s', h1, h2, cd', s1', user, rp, ad, h3, h4, h5⟩
    rw [hget] at h3
    cases h3
    obtain ⟨ad', h6⟩ := (key user rp).mpr ⟨ad, h4⟩
    obtain ⟨t', h7⟩ := hreg ⟨a.credential, ad', user, rp⟩ s1
    exact ⟨t', h1, h2, cd, s1, user, rp, ad', hget, h6, h7⟩

example : FlipsUV (List.replicate 32 1 ++ 0x45 :: [0, 0, 0, 7]) (List.replicate 32 1 ++ 0x41 :: [0, 0, 0, 7]) :=
  ⟨_, 0x45, 0x41, [0, 0, 0, 7], by decide, rfl, rfl, by
    intro i hi
    rcases Nat.lt_or_ge i 8 with h | h
    · interval_cases i <;> first | rfl | exact absurd rfl hi
    · rw [Nat.testBit_lt_two_pow, Nat.testBit_lt_two_pow]
      · exact lt_of_lt_of_le (by decide) (Nat.pow_le_pow_right (by decide) h)
      · exact lt_of_lt_of_le (by decide) (Nat.pow_le_pow_right (by decide) h), rfl⟩

theorem attestationOk_flip {a a' : AttestationArgs}
    {cdj ob ob' raw raw' : Bytes} {o : AttestationObject}
    (huv : a.requireUserVerification = false) (hf : FlipsUV raw raw')
    (hr : a.credential.response = .attestation cdj ob)
    (ha' : a' = { a with credential := { a.credential with response := .attestation cdj ob' } })
    (hob' : ∀ ad, AuthDataOf env raw' ad → AttObjOf env ob' { o with authData := ad } raw')
    (h : AttestationOk env a o raw) :
    ∃ ad, AttestationOk env a' { o with authData := ad } raw' := by
  obtain ⟨cdj1, ob1, h1, h2, h3, h4, h5⟩ := h
  rw [hr] at h1
  cases h1
  rw [huv] at h4
  obtain ⟨fl, h4'⟩ := authOk_flip hf h4
  refine ⟨{ o.authData with flags := fl }, cdj, ob', by rw [ha'], ?_, hob' _ h4'.1, ?_, h5⟩
  · rw [ha']; exact h2
  · have e : a'.requireUserVerification = false := by rw [ha']; exact huv
    have e1 : a'.rp = a.rp := by rw [ha']
    have e2 : a'.expectedExtensions = a.expectedExtensions := by rw [ha']
    rw [e, e1, e2]
    exact h4'

/-- C07, `False`, registration: the attestation object around the authenticator
data may be re-encoded with the UV bit flipped. -/
theorem C07_user_verification_ignored_registration {a a' : AttestationArgs} {s s' : σ}
    {cdj ob ob' raw raw' : Bytes} {o : AttestationObject}
    (huv : a.requireUserVerification = false) (hf : FlipsUV raw raw')
    (hr : a.credential.response = .attestation cdj ob)
    (ha' : a' = { a with credential := { a.credential with response := .attestation cdj ob' } })
    (hob : AttObjOf env ob o raw)
    (hob' : ∀ ad, AuthDataOf env raw' ad → AttObjOf env ob' { o with authData := ad } raw')
    (hreg : ∀ r t, ∃ t', reg.registerAttestation r t = (.ok none, t'))
    (h : handleAttestation env reg a s = (.ok (), s')) :
    ∃ t, handleAttestation env reg a' s = (.ok (), t) := by
  obtain ⟨h1, o', raw₁, h2, h3, -⟩ := attestation_accepts.mp h
  have : (o', raw₁) = (o, raw) := by
    obtain ⟨cdj', ob₁, e, -, h4, -⟩ := h2
    rw [hr] at e
    cases e
    rw [← parseAttestationObject_ok_iff] at h4 hob
    rw [h4] at hob
    exact Except.ok.inj hob
  cases this
  obtain ⟨ad, h4⟩ := attestationOk_flip huv hf hr ha' hob' h2
  obtain ⟨t, ht⟩ := hreg ⟨a'.credential, { o with authData := ad }, .NONE, a'.user, a'.rp, none⟩ s
  exact ⟨t, attestation_accepts.mpr ⟨by rw [ha']; exact h1, _, _, h4, h3, ht⟩⟩

/-! ## C08 -/

/-- C08, registration: every expected extension has a value in the extension map
at the end of the authenticator data. -/
theorem C08_extensions_registration {a : AttestationArgs} {s s' : σ}
    (h : handleAttestation env reg a s = (.ok (), s')) {l : List ExtId}
    (hl : a.expectedExtensions = some l) :
    ∃ cdj ob o raw, a.credential.response = .attestation cdj ob ∧ AttObjOf env ob o raw ∧
      ∀ i ∈ l, ∃ e, o.authData.extensions = some e ∧ HasExtension e i := by
  obtain ⟨-, o, raw, ⟨cdj, ob, h1, -, h2, ⟨-, -, -, -, h3⟩, -⟩, -⟩ := attestation_accepts.mp h
  exact ⟨cdj, ob, o, raw, h1, h2, h3 l hl⟩

/-- C08, authentication. -/
theorem C08_extensions_authentication {a : AssertionArgs} {s s' : σ}
    (h : handleAssertion env reg a s = (.ok (), s')) {l : List ExtId}
    (hl : a.expectedExtensions = some l) :
    ∃ cdj raw sig handle ad, a.credential.response = .assertion cdj raw sig handle ∧
      AuthDataOf env raw ad ∧ ∀ i ∈ l, ∃ e, ad.extensions = some e ∧ HasExtension e i := by
  obtain ⟨-, -, cd, s1, user, rp, ad, -, ⟨cdj, raw, sig, hd, h1, -, -, -, ⟨h2, -, -, -, h3⟩, -⟩,
    -⟩ := assertion_accepts.mp h
  exact ⟨cdj, raw, sig, hd, ad, h1, h2, h3 l hl⟩

/-! ## C09 -/

/-- C09, registration. -/
theorem C09_token_binding_registration {a : AttestationArgs} {s s' : σ}
    (h : handleAttestation env reg a s = (.ok (), s')) :
    ∃ cdj ob d tb, a.credential.response = .attestation cdj ob ∧ ClientJson env cdj d ∧
      TokenBindingMember d tb ∧ TokenBindingOk a.tokenBinding tb := by
  obtain ⟨-, o, raw, ⟨cdj, ob, h1, ⟨cd, ⟨d, h2, -, -, -, h3⟩, -, -, -, h4⟩, -⟩, -⟩ :=
    attestation_accepts.mp h
  exact ⟨cdj, ob, d, _, h1, h2, h3, h4⟩

/-- C09, authentication. -/
theorem C09_token_binding_authentication {a : AssertionArgs} {s s' : σ}
    (h : handleAssertion env reg a s = (.ok (), s')) :
    ∃ cdj raw sig handle d tb, a.credential.response = .assertion cdj raw sig handle ∧
      ClientJson env cdj d ∧ TokenBindingMember d tb ∧ TokenBindingOk a.tokenBinding tb := by
  obtain ⟨-, -, cd, s1, user, rp, ad, -, ⟨cdj, raw, sig, hd, h1, -, -,
    ⟨c, ⟨d, h2, -, -, -, h3⟩, -, -, -, h4⟩, -⟩, -⟩ := assertion_accepts.mp h
  exact ⟨cdj, raw, sig, hd, d, _, h1, h2, h3, h4⟩

/-! ## C10 -/

/-- C10: outside the allow list the call fails with `CredentialNotAllowedError`
and the registrar's state is untouched, for every registrar (so also for one that
records its calls). -/
theorem C10_allow_list {a : AssertionArgs} {s : σ} (hexp : ExpectedOk env a.expectedOrigin)
    {l : List Descriptor} (hl : a.allowCredentials = some l)
    (hno : ∀ c ∈ l, c.id ≠ a.credential.rawId) :
    handleAssertion env reg a s = (.error (.lib .credentialNotAllowed), s) := by
  obtain ⟨allowed, ha⟩ := expectedOk_iff.mp hexp
  have hany : (l.any fun c => c.id == a.credential.rawId) = false := by
    rw [List.any_eq_false]
    intro c hc
    simpa using hno c hc
  have : assertionPre env a = .error (.lib .credentialNotAllowed) := by
    simp only [assertionPre, ha, hl, hany]
    rfl
  rw [handleAssertion_pre this]
  rfl

example : handleAssertion Demo.env Demo.registrar
    { Demo.authArgs with allowCredentials := some [⟨[1]⟩, ⟨[2, 3]⟩] } [] =
      (.error (.lib .credentialNotAllowed), []) :=
  C10_allow_list (l := [⟨[1]⟩, ⟨[2, 3]⟩]) Demo.expected_ok rfl (by decide)

/-- C10, success: the raw id is in the allow list. -/
theorem C10_allow_list_success {a : AssertionArgs} {s s' : σ}
    (h : handleAssertion env reg a s = (.ok (), s')) {l : List Descriptor}
    (hl : a.allowCredentials = some l) : ∃ c ∈ l, c.id = a.credential.rawId :=
  (assertion_accepts.mp h).2.1 l hl

/-! ## C11, C12 -/

/-- C11: the user argument, the user handle and the user handed to the registrar
all have the id of the registered user; without a user argument there is a
handle. -/
theorem C11_user_bound {a : AssertionArgs} {s s' : σ}
    (h : handleAssertion env reg a s = (.ok (), s')) :
    ∃ cd s1 cdj raw sig handle r,
      reg.getCredentialData a.credential.rawId s = (.ok (some cd), s1) ∧
      a.credential.response = .assertion cdj raw sig handle ∧
      (∀ u, a.user = some u → u.id = cd.user.id) ∧
      (a.user = none → handle ≠ none) ∧
      (∀ x, handle = some x → x = cd.user.id) ∧
      reg.registerAssertion r s1 = (.ok none, s') ∧ r.user.id = cd.user.id ∧
      (∀ u, a.user = some u → r.user = u) ∧ (a.user = none → r.user = cd.user) := by
  obtain ⟨-, -, cd, s1, user, rp, ad, h0, ⟨cdj, raw, sig, hd, h1, h2, -⟩, h3⟩ :=
    assertion_accepts.mp h
  refine ⟨cd, s1, cdj, raw, sig, hd, _, h0, h1, ?_, ?_, ?_, h3, ?_, ?_, ?_⟩ <;>
    generalize a.user = au at h2 ⊢ <;> generalize cd.user = ru at h2 ⊢ <;> (try simp only)
  · intro u hu; subst hu; cases h2; assumption
  · intro hu; subst hu; cases h2; simp
  · intro x hx; subst hx
    cases h2 with
    | given _ _ _ h5 => exact h5 x rfl
    | fromHandle => rfl
  · cases h2 with
    | given _ _ h4 _ => exact h4
    | fromHandle => rfl
  · intro u hu; subst hu; cases h2; rfl
  · intro hu; subst hu; cases h2; rfl

/-- C12: an RP is known, the argument and the registered one have the same id,
and the registrar gets the effective one. -/
theorem C12_rp_bound {a : AssertionArgs} {s s' : σ}
    (h : handleAssertion env reg a s = (.ok (), s')) :
    ∃ cd s1 r, reg.getCredentialData a.credential.rawId s = (.ok (some cd), s1) ∧
      (a.rp ≠ none ∨ cd.rp ≠ none) ∧
      (∀ x y, a.rp = some x → cd.rp = some y → x.id = y.id) ∧
      reg.registerAssertion r s1 = (.ok none, s') ∧
      (∀ x, a.rp = some x → r.rp = x) ∧ (∀ y, a.rp = none → cd.rp = some y → r.rp = y) := by
  obtain ⟨-, -, cd, s1, user, rp, ad, h0, ⟨cdj, raw, sig, hd, h1, -, h2, -⟩, h3⟩ :=
    assertion_accepts.mp h
  refine ⟨cd, s1, _, h0, ?_, ?_, h3, ?_, ?_⟩ <;>
    generalize a.rp = ar at h2 ⊢ <;> generalize cd.rp = cr at h2 ⊢ <;> (try simp only)
  · cases h2 <;> simp
  · rintro x y rfl rfl; cases h2; symm; assumption
  · rintro x rfl; cases h2 <;> rfl
  · rintro y rfl rfl; cases h2; rfl

/-! ## C13 -/

/-- C13: with a stored counter and clone errors not ignored, the counter in the
authenticator data is larger. -/
theorem C13_counter_increases {a : AssertionArgs} {s s' : σ}
    (h : handleAssertion env reg a s = (.ok (), s')) (hi : a.ignoreCloneError = false) :
    ∃ cd s1 cdj raw sig handle,
      reg.getCredentialData a.credential.rawId s = (.ok (some cd), s1) ∧
      a.credential.response = .assertion cdj raw sig handle ∧
      ∀ n, cd.signatureCount = some n →
        ∃ c : Nat, BigEndian ((raw.drop 33).take 4) c ∧ n < (c : Int) := by
  obtain ⟨-, -, cd, s1, user, rp, ad, h0, ⟨cdj, raw, sig, hd, h1, -, -, -, -, -, h2⟩, -⟩ :=
    assertion_accepts.mp h
  exact ⟨cd, s1, cdj, raw, sig, hd, h0, h1, fun n hn => h2 n hn hi⟩

/-- C13: without a stored counter, or with clone errors ignored, the counter is
not asked about: authentication accepts exactly the responses that are valid
apart from it. -/
theorem C13_counter_ignored {a : AssertionArgs} {s s' s1 : σ} {cd : CredentialData}
    (hget : reg.getCredentialData a.credential.rawId s = (.ok (some cd), s1))
    (h : cd.signatureCount = none ∨ a.ignoreCloneError = true) :
    handleAssertion env reg a s = (.ok (), s') ↔
      ExpectedOk env a.expectedOrigin ∧ AllowOk a.allowCredentials a.credential.rawId ∧
      ∃ user rp ad cdj raw sig handle, a.credential.response = .assertion cdj raw sig handle ∧
        UserOk cd.user a.user handle user ∧ RpOk cd.rp a.rp rp ∧
        ClientOk env cdj "webauthn.get" a.expectedChallenge a.expectedOrigin a.tokenBinding ∧
        AuthOk env raw ad rp.id a.requireUserVerification a.expectedExtensions ∧
        SignedBy env cd.publicKey sig (raw ++ env.sha256 cdj) ∧
        reg.registerAssertion ⟨a.credential, ad, user, rp⟩ s1 = (.ok none, s') := by
  have hc : ∀ raw, CounterOk cd.signatureCount raw a.ignoreCloneError := by
    intro raw n hn hi
    rcases h with h | h
    · rw [h] at hn; cases hn
    · rw [h] at hi; cases hi
  rw [assertion_accepts]
  constructor
  · rintro ⟨h1, h2, cd', s1', user, rp, ad, h3, ⟨cdj, raw, sig, hd, h4, h5, h6, h7, h8, h9, -⟩, h10⟩
    rw [hget] at h3
    cases h3
    exact ⟨h1, h2, user, rp, ad, cdj, raw, sig, hd, h4, h5, h6, h7, h8, h9, h10⟩
  · rintro ⟨h1, h2, user, rp, ad, cdj, raw, sig, hd, h4, h5, h6, h7, h8, h9, h10⟩
    exact ⟨h1, h2, cd, s1, user, rp, ad, hget, ⟨cdj, raw, sig, hd, h4, h5, h6, h7, h8, h9, hc raw⟩, h10⟩

end

end WebAuthn.Props
