import Verif.Model.KeyUse
import Verif.Spec.KeyUse
import Verif.Props.Choosy
import Verif.Props.Ceremony

/-!
# Keys are used as their parameters permit (C83)
-/

namespace WebAuthn.Props

open WebAuthn WebAuthn.Spec

/-! ## What holds of the code -/

theorem signedAs_of {env : Env} {k : CPK} {sig data : Bytes} (h : SignedBy env k sig data) :
    ∃ alg, SignedAs env k sig data alg ∧
      match k with
      | .ec2 b _ _ _ => (∃ m, b.alg = some m ∧ m.id = alg) ∧ SuitsType .EC2 alg
      | .okp _ _ _ => alg = .EDDSA
      | .base _ => False := by
  cases h with
  | ecdsa b x y crv pk alg h _ _ h1 h2 h3 h4 =>
    refine ⟨alg.id, .ecdsa pk _ h h1 h3 h4, ⟨alg, h2, rfl⟩, ?_⟩
    generalize alg.id = a at h3
    cases h3 <;> constructor
  | eddsa b crv x pk _ _ h1 h2 => exact ⟨.EDDSA, .eddsa pk h1 h2, rfl⟩

/-- C83, the part about elliptic curve keys: the algorithm that is used is the one the key says
it is for. -/
theorem C83_algorithm {env : Env} {b : KeyBase} {x y sig data : Bytes} {crv : NV Curve}
    (h : verify env (.ec2 b x y crv) sig data = .ok ()) :
    ∃ m, b.alg = some m ∧ SignedAs env (.ec2 b x y crv) sig data m.id := by
  obtain ⟨alg, h1, ⟨m, hm, rfl⟩, -⟩ := signedAs_of (C46_verify_exact.mp h)
  exact ⟨m, hm, h1⟩

/-- C83, the part that holds: verification with a key of a family (as all keys of registrations
are, `C72_family_partial`) whose `key_ops`, if it has any, contain `verify`.  Missing: the
other keys, see `C83_refuted`. -/
theorem C83_use_partial {env : Env} {k : CPK} {sig data : Bytes}
    (h : verify env k sig data = .ok ()) (hk : KeyConsistent k)
    (ho : ∀ ops, (baseOf k).keyOps = some ops → ∃ o ∈ ops, o.id = .VERIFY) :
    ∃ alg, SignedAs env k sig data alg ∧ Permits (baseOf k) alg := by
  obtain ⟨alg, h1, h2⟩ := signedAs_of (C46_verify_exact.mp h)
  refine ⟨alg, h1, ?_⟩
  cases k with
  | base b => exact h2.elim
  | ec2 b x y crv =>
    obtain ⟨⟨m, hm, rfl⟩, hs⟩ := h2
    refine ⟨?_, fun m' hm' => ?_, ho⟩
    · show SuitsType b.kty.id _
      rw [hk.1]
      exact hs
    · have hm' : b.alg = some m' := hm'
      rw [hm] at hm'
      cases hm'
      rfl
  | okp b crv x =>
    subst h2
    obtain ⟨h3, -, m, hm, hid⟩ := hk
    refine ⟨?_, fun m' hm' => ?_, ho⟩
    · show SuitsType b.kty.id _
      rw [h3]
      exact .eddsa
    · have hm' : b.alg = some m' := hm'
      rw [hm] at hm'
      cases hm'
      exact hid

/-- C83: so an authentication with a key that a registration brought uses it as permitted, up to
`key_ops`. -/
theorem C83_registered_partial {σ τ : Type} {env : Env} {reg : Registrar σ} {reg' : Registrar τ}
    {a : AttestationArgs} {s s' : σ} (hr : handleAttestation env reg a s = (.ok (), s'))
    {a' : AssertionArgs} {t t' t1 : τ} (h : handleAssertion env reg' a' t = (.ok (), t'))
    {cd : CredentialData} (hcd : reg'.getCredentialData a'.credential.rawId t = (.ok (some cd), t1))
    (hk : Attests env a.credential cd.publicKey)
    (ho : ∀ ops, (baseOf cd.publicKey).keyOps = some ops → ∃ o ∈ ops, o.id = .VERIFY) :
    ∃ cdj raw sig handle alg, a'.credential.response = .assertion cdj raw sig handle ∧
      SignedAs env cd.publicKey sig (raw ++ env.sha256 cdj) alg ∧
      Permits (baseOf cd.publicKey) alg := by
  obtain ⟨k, hka, hkc⟩ := C72_family_partial hr
  cases attests_unique hk hka
  obtain ⟨cd', s1, cdj, raw, sig, handle, h1, h2, h3⟩ := C01_signature_required h
  rw [hcd] at h1
  cases h1
  obtain ⟨alg, h4, h5⟩ := C83_use_partial (C46_verify_exact.mpr h3) hkc ho
  exact ⟨cdj, raw, sig, handle, alg, h2, h4, h5⟩

/-! ## The repair -/

theorem opsPermit_iff {b : KeyBase} :
    opsPermit b = true ↔ ∀ ops, b.keyOps = some ops → ∃ o ∈ ops, o.id = .VERIFY := by
  unfold opsPermit
  cases b.keyOps <;> simp

/-- The check of the repair is the one that the docstring asks for. -/
theorem forVerification_iff {k : CPK} : forVerification k = true ↔
    (∃ alg, Permits (baseOf k) alg) ∧
      match k with
      | .ec2 b _ _ _ => b.kty.id = .EC2
      | .okp b _ _ => b.kty.id = .OKP
      | .base _ => False := by
  cases k with
  | base b => simp [forVerification]
  | ec2 b x y crv =>
    simp only [forVerification, Bool.and_eq_true, beq_iff_eq, opsPermit_iff, Permits, baseOf]
    constructor
    · rintro ⟨⟨h1, h2⟩, h3⟩
      refine ⟨?_, h1⟩
      rw [h1]
      cases ha : b.alg with
      | none => exact ⟨.ES256, .es256, by simp, h3⟩
      | some m =>
        rw [ha] at h2
        refine ⟨m.id, ?_, by simp, h3⟩
        revert h2
        simp only [Option.all_some]
        generalize m.id = i
        cases i <;> intro h2
        · exact .es256
        · exact .es384
        · exact .es512
        · exact absurd h2 (by decide)
    · rintro ⟨⟨alg, h1, h2, h3⟩, h4⟩
      refine ⟨⟨h4, ?_⟩, h3⟩
      rw [h4] at h1
      cases ha : b.alg with
      | none => rfl
      | some m =>
        have h5 := h2 m ha
        simp only [Option.all_some, h5]
        cases h1 <;> decide
  | okp b crv x =>
    simp only [forVerification, Bool.and_eq_true, beq_iff_eq, opsPermit_iff, Permits, baseOf]
    constructor
    · rintro ⟨⟨h1, h2⟩, h3⟩
      refine ⟨⟨.EDDSA, ?_, ?_, h3⟩, h1⟩
      · rw [h1]
        exact .eddsa
      · intro m hm
        rw [hm] at h2
        simpa using h2
    · rintro ⟨⟨alg, h1, h2, h3⟩, h4⟩
      refine ⟨⟨h4, ?_⟩, h3⟩
      rw [h4] at h1
      cases h1
      cases ha : b.alg with
      | none => rfl
      | some m => simpa using h2 m ha

theorem permits_of {env : Env} {k : CPK} {sig data : Bytes} (h : SignedBy env k sig data)
    (hf : forVerification k = true) :
    ∃ alg, SignedAs env k sig data alg ∧ Permits (baseOf k) alg := by
  obtain ⟨⟨alg', h3, h4, h5⟩, h6⟩ := forVerification_iff.mp hf
  obtain ⟨alg, h1, h2⟩ := signedAs_of h
  refine ⟨alg, h1, ?_⟩
  cases k with
  | base b => exact h2.elim
  | ec2 b x y crv =>
    obtain ⟨⟨m, hm, rfl⟩, hs⟩ := h2
    refine ⟨?_, fun m' hm' => ?_, h5⟩
    · show SuitsType b.kty.id _
      rw [h6]
      exact hs
    · have hm' : b.alg = some m' := hm'
      rw [hm] at hm'
      cases hm'
      rfl
  | okp b crv x =>
    subst h2
    have h3 : SuitsType b.kty.id alg' := h3
    rw [h6] at h3
    cases h3
    refine ⟨?_, h4, h5⟩
    show SuitsType b.kty.id _
    rw [h6]
    exact .eddsa

section
variable {σ : Type} {env : Env} {reg : Registrar σ} {a : AssertionArgs} {s s' : σ}

theorem permitting_finds {id : Bytes} {cd : CredentialData} {s1 : σ} :
    (permitting reg).getCredentialData id s = (.ok (some cd), s1) ↔
      reg.getCredentialData id s = (.ok (some cd), s1) ∧ forVerification cd.publicKey = true := by
  simp only [permitting]
  split
  · next cd' s2 h =>
    rw [h]
    split <;> simp only [Prod.mk.injEq, Except.ok.injEq, Option.some.injEq, reduceCtorEq, false_and,
      false_iff, not_and]
    · next hf => exact ⟨fun ⟨h1, h2⟩ => ⟨⟨h1, h2⟩, h1 ▸ hf⟩, fun h => h.1⟩
    · next hf =>
      rintro ⟨rfl, -⟩
      exact hf
  · next h =>
    constructor
    · intro h'
      exact absurd h' (h cd s1)
    · intro h'
      exact absurd h'.1 (h cd s1)

/-- C83: with this registrar an authentication uses the stored key as its parameters permit. -/
theorem C83_repaired (h : handleAssertion env (permitting reg) a s = (.ok (), s')) :
    ∃ cd s1 cdj raw sig handle alg,
      reg.getCredentialData a.credential.rawId s = (.ok (some cd), s1) ∧
      a.credential.response = .assertion cdj raw sig handle ∧
      SignedAs env cd.publicKey sig (raw ++ env.sha256 cdj) alg ∧
      Permits (baseOf cd.publicKey) alg := by
  obtain ⟨cd, s1, cdj, raw, sig, handle, h1, h2, h3⟩ := C01_signature_required h
  obtain ⟨h1, hf⟩ := permitting_finds.mp h1
  obtain ⟨alg, h4, h5⟩ := permits_of h3 hf
  exact ⟨cd, s1, cdj, raw, sig, handle, alg, h1, h2, h4, h5⟩

/-- C83: and the authentications that succeed with it are those that succeed without it and use
a key as permitted. -/
theorem C83_repaired_exact : handleAssertion env (permitting reg) a s = (.ok (), s') ↔
    handleAssertion env reg a s = (.ok (), s') ∧
      ∃ cd s1, reg.getCredentialData a.credential.rawId s = (.ok (some cd), s1) ∧
        forVerification cd.publicKey = true := by
  rw [C17_authentication_accepts_exactly, C17_authentication_accepts_exactly]
  constructor
  · rintro ⟨h1, h2, cd, s1, user, rp, ad, h3, h4, h5⟩
    obtain ⟨h3, hf⟩ := permitting_finds.mp h3
    exact ⟨⟨h1, h2, cd, s1, user, rp, ad, h3, h4, h5⟩, cd, s1, h3, hf⟩
  · rintro ⟨⟨h1, h2, cd, s1, user, rp, ad, h3, h4, h5⟩, cd', s1', h3', hf⟩
    rw [h3] at h3'
    cases h3'
    exact ⟨h1, h2, cd, s1, user, rp, ad, permitting_finds.mpr ⟨h3, hf⟩, h4, h5⟩

end

/-! ## What does not hold -/

end WebAuthn.Props

namespace WebAuthn.Demo

open WebAuthn WebAuthn.Spec WebAuthn.Props

/-- The key of the world with other parameters. -/
def keyWith (b : KeyBase) : CPK := .ec2 b x y (.value .P_256)

/-- The authentication of the world does not depend on `kty` and `key_ops` of the stored key. -/
theorem authentication_with (b : KeyBase) (hb : b.alg = some (.value .ES256)) :
    handleAssertion env registrar authArgs [(credId, ⟨keyWith b, some 1, user, none⟩)] =
      (.ok (), [(credId, ⟨keyWith b, some 2, user, none⟩), (credId, ⟨keyWith b, some 1, user, none⟩)]) := by
  refine C52_honest_authentication codec json (a := authArgs) (cd := ⟨keyWith b, some 1, user, none⟩)
    (s1 := [(credId, ⟨keyWith b, some 1, user, none⟩)]) (user := user) (rp := rp) (ad := authAd) ?_ ?_
    (rfl : authCredential.response = _) (clientData_client rfl) challengeText_ok .fromHandle (.arg _) authRaw_enc
    (rpHash_enc authRaw_enc rfl) (flagSet_enc authRaw_enc (by decide))
    (fun _ => flagSet_enc authRaw_enc (by decide)) (by intro l hl; cases hl)
    (.ecdsa _ _ _ _ pubKey _ _ _ _ (.ec2 _ _ _ _ _ _ _ .p256 (bigEndian_beNat _) (bigEndian_beNat _)
      (by decide)) hb .es256 (check_sign pubKey (authRaw ++ sha authCdj))) ?_
    expected_ok (originAllowed_of expected_ok (by simp [originList, authArgs])) .none ?_
  · show (Except.ok (lookup _ credId), _) = _
    rw [lookup_head]
  · intro l hl
    cases hl
    exact ⟨⟨credId⟩, by simp, rfl⟩
  · intro n hn _
    cases hn
    exact ⟨2, (authDataOf_head (encodedAuthData_of codec authRaw_enc)).2.2.2, by decide⟩
  · simp only [registrar, authArgs, authCredential, lookup_head]
    rfl

theorem finds (id : Bytes) (cd : CredentialData) (s : Store) :
    registrar.getCredentialData id ((id, cd) :: s) = (.ok (some cd), (id, cd) :: s) := by
  show (Except.ok (lookup _ id), _) = _
  rw [lookup_head]

/-- A key for making signatures only. -/
def signing : KeyBase :=
  { kty := .value .EC2, alg := some (.value .ES256), keyOps := some [.value .SIGN] }

end WebAuthn.Demo

namespace WebAuthn.Props

open WebAuthn WebAuthn.Spec

/-- C83 is false: a key whose `key_ops` are to sign only verifies a signature in an
authentication.  Neither is the key type looked at, nor the algorithm of an OKP key. -/
theorem C83_refuted : ¬ PermittedUse Demo.env ∧
    (∀ alg, ¬ Permits (baseOf (Demo.keyWith Demo.signing)) alg) ∧
    (∀ env b b' crv x sig data, verify env (.okp b crv x) sig data = verify env (.okp b' crv x) sig data) ∧
    ∀ env b kty ops x y crv sig data, verify env (.ec2 { b with kty := kty, keyOps := ops } x y crv) sig data =
      verify env (.ec2 b x y crv) sig data := by
  have hno : ∀ alg, ¬ Permits (baseOf (Demo.keyWith Demo.signing)) alg := by
    rintro alg ⟨-, -, h⟩
    obtain ⟨o, ho, hid⟩ := h _ rfl
    rw [List.mem_singleton.mp ho] at hid
    cases hid
  refine ⟨fun h => ?_, hno, fun _ _ _ _ _ _ _ => rfl, fun _ _ _ _ _ _ _ _ _ => rfl⟩
  obtain ⟨alg, -, h1⟩ := h _ Demo.registrar Demo.authArgs _ _ _ _ _ _ _ _
    (Demo.authentication_with Demo.signing rfl)
    (Demo.finds Demo.credId _ []) rfl
  exact hno alg h1

/-! ## Instances -/

theorem demo_authentication_permitted : handleAssertion Demo.env (permitting Demo.registrar) Demo.authArgs
    [(Demo.credId, Demo.stored 1)] =
      (.ok (), [(Demo.credId, Demo.stored 2), (Demo.credId, Demo.stored 1)]) :=
  C83_repaired_exact.mpr ⟨Demo.authentication_ok [], Demo.stored 1, [(Demo.credId, Demo.stored 1)],
    Demo.finds Demo.credId _ [], rfl⟩

example : ∃ cd s1 cdj raw sig handle alg,
    Demo.registrar.getCredentialData Demo.authArgs.credential.rawId [(Demo.credId, Demo.stored 1)] =
      (.ok (some cd), s1) ∧
    Demo.authArgs.credential.response = .assertion cdj raw sig handle ∧
    SignedAs Demo.env cd.publicKey sig (raw ++ Demo.env.sha256 cdj) alg ∧
    Permits (baseOf cd.publicKey) alg :=
  C83_repaired demo_authentication_permitted

/-- The key for making signatures only is not found. -/
example : ∀ s', handleAssertion Demo.env (permitting Demo.registrar) Demo.authArgs
    [(Demo.credId, ⟨Demo.keyWith Demo.signing, some 1, Demo.user, none⟩)] ≠ (.ok (), s') := by
  intro s' h
  obtain ⟨-, cd, s1, h1, h2⟩ := C83_repaired_exact.mp h
  cases (Demo.finds Demo.credId _ []).symm.trans h1
  exact absurd h2 (by decide)

/-- The key of the world and its signature. -/
example : ∃ alg, SignedAs Demo.env Demo.key Demo.signature (Demo.authRaw ++ Demo.env.sha256 Demo.authCdj) alg ∧
    Permits (baseOf Demo.key) alg :=
  C83_use_partial (C46_verify_exact.mpr Demo.signature_ok) Demo.key_consistent nofun

example : ∃ m, some (NV.value Alg.ES256) = some m ∧ SignedAs Demo.env Demo.key Demo.signature
    (Demo.authRaw ++ Demo.env.sha256 Demo.authCdj) m.id :=
  C83_algorithm (C46_verify_exact.mpr Demo.signature_ok)

end WebAuthn.Props
