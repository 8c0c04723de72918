import Verif.Spec.Registrar
import Verif.Lemmas.Failure
import Verif.Lemmas.Ordinary
import Verif.Codec.Ordinary
import Verif.Props.Attest

/-!
# What a failing ceremony leaves behind and reports (C14, C15, C16, C54)
-/

namespace WebAuthn.Props

open WebAuthn WebAuthn.Spec

section
variable {σ : Type} {env : Env} {reg : Registrar σ}

/-! ## C14 -/

/-- Recording the calls changes neither the result nor the state. -/
theorem recording_attestation (a : AttestationArgs) (s : σ) (log : List Call) :
    (handleAttestation env (recording reg) a (s, log)).1 = (handleAttestation env reg a s).1 ∧
    (handleAttestation env (recording reg) a (s, log)).2.1 = (handleAttestation env reg a s).2 := by
  cases h : attestationChecks env a with
  | error e => simp only [handleAttestation, h, and_self]
  | ok r => simp only [handleAttestation, h, recording, and_self]

theorem recording_assertion (a : AssertionArgs) (s : σ) (log : List Call) :
    (handleAssertion env (recording reg) a (s, log)).1 = (handleAssertion env reg a s).1 ∧
    (handleAssertion env (recording reg) a (s, log)).2.1 = (handleAssertion env reg a s).2 := by
  cases h : assertionPre env a with
  | error e => simp only [handleAssertion, h, and_self]
  | ok al =>
    rcases hr : reg.getCredentialData a.credential.rawId s with ⟨rd, s1⟩
    cases hc : checkRead rd with
    | error e => simp only [handleAssertion, h, recording, hr, hc, and_self]
    | ok cd =>
      cases hk : assertionChecks env a al cd with
      | error e => simp only [handleAssertion, h, recording, hr, hc, hk, and_self]
      | ok r => simp only [handleAssertion, h, recording, hr, hc, hk, and_self]

/-- C14, registration: the registrar is called at most once, by the last action,
and only when every check passed; the record has the presented credential, the
attestation object of the response, and the given user and Relying Party. -/
theorem C14_registration_calls {a : AttestationArgs} {s : σ} (log : List Call) :
    ((∃ e, (handleAttestation env (recording reg) a (s, log)).1 = .error e) ∧
      (handleAttestation env (recording reg) a (s, log)).2 = (s, log)) ∨
    ∃ o raw, ExpectedOk env a.expectedOrigin ∧ AttestationOk env a o raw ∧
      (handleAttestation env (recording reg) a (s, log)).2 =
        ((reg.registerAttestation ⟨a.credential, o, .NONE, a.user, a.rp, none⟩ s).2,
          log ++ [.attestation ⟨a.credential, o, .NONE, a.user, a.rp, none⟩]) := by
  cases h : attestationChecks env a with
  | error e =>
    refine Or.inl ?_
    simp only [handleAttestation, h]
    cases hf : (finalise (.error e) : Py Unit) with
    | ok u => rw [finalise_ok_iff] at hf; cases hf
    | error e' => exact ⟨⟨e', rfl⟩, trivial⟩
  | ok r =>
    refine Or.inr ?_
    obtain ⟨h1, ⟨raw, h2⟩, -, e1, e2, e3, e4, e5⟩ := attestationChecks_ok_iff.mp h
    refine ⟨r.att, raw, h1, h2, ?_⟩
    rw [← e1, ← e2, ← e3, ← e4, ← e5]
    simp only [handleAttestation, h, recording]

/-- C14, authentication: no call at all, or the read only, or the read and one
write as the last action when every check passed. -/
theorem C14_authentication_calls {a : AssertionArgs} {s : σ} (log : List Call) :
    ((∃ e, (handleAssertion env (recording reg) a (s, log)).1 = .error e) ∧
      ((handleAssertion env (recording reg) a (s, log)).2 = (s, log) ∨
       (handleAssertion env (recording reg) a (s, log)).2 =
        ((reg.getCredentialData a.credential.rawId s).2, log ++ [.read a.credential.rawId]))) ∨
    ∃ cd s1 user rp ad, ExpectedOk env a.expectedOrigin ∧
      AllowOk a.allowCredentials a.credential.rawId ∧
      reg.getCredentialData a.credential.rawId s = (.ok (some cd), s1) ∧
      AssertionOk env a cd user rp ad ∧
      (handleAssertion env (recording reg) a (s, log)).2 =
        ((reg.registerAssertion ⟨a.credential, ad, user, rp⟩ s1).2,
          log ++ [.read a.credential.rawId, .assertion ⟨a.credential, ad, user, rp⟩]) := by
  have herr : ∀ e, ∃ e', (finalise (.error e) : Py Unit) = .error e' := by
    intro e
    cases hf : (finalise (.error e) : Py Unit) with
    | ok u => rw [finalise_ok_iff] at hf; cases hf
    | error e' => exact ⟨e', rfl⟩
  rcases handleAssertion_cases env (recording reg) a (s, log) with
    ⟨e, -, h⟩ | ⟨al, rd, s1, h1, h2, h3⟩
  · rw [h]
    exact Or.inl ⟨herr e, Or.inl rfl⟩
  · have hs1 : s1 = ((reg.getCredentialData a.credential.rawId s).2,
        log ++ [.read a.credential.rawId]) := by
      simp only [recording, Prod.mk.injEq] at h2
      exact h2.2.symm
    have hrd : (reg.getCredentialData a.credential.rawId s).1 = rd := by
      simp only [recording, Prod.mk.injEq] at h2
      exact h2.1
    rcases h3 with ⟨e, -, h3⟩ | ⟨cd, h3, h4⟩
    · rw [h3]
      exact Or.inl ⟨herr e, Or.inr hs1⟩
    · rcases h4 with ⟨e, -, h4⟩ | ⟨r, w, s2, h5, h6, h7⟩
      · rw [h4]
        exact Or.inl ⟨herr e, Or.inr hs1⟩
      · refine Or.inr ?_
        obtain ⟨h8, h9⟩ := assertionPre_ok_iff.mp h1
        obtain ⟨h10, h11⟩ := (assertionChecks_ok_iff h8).mp h5
        refine ⟨cd, (reg.getCredentialData a.credential.rawId s).2, r.user, r.rp, r.authData,
          expectedOk_iff.mpr ⟨al, h8⟩, h9, Prod.ext (hrd.trans h3) rfl, h11, ?_⟩
        have hr : (⟨a.credential, r.authData, r.user, r.rp⟩ : AssertionRecord) = r := by
          rw [← h10]
        simp only [recording, Prod.mk.injEq, hs1] at h6
        rw [h7, hr, ← h6.2]
        simp

/-- C14: a failed registration leaves the state alone, unless the write call
itself failed. -/
theorem C14_failed_registration {a : AttestationArgs} {s s' : σ} {e : Exc}
    (h : handleAttestation env reg a s = (.error e, s')) :
    s' = s ∨ ∃ r w, reg.registerAttestation r s = (w, s') ∧ w ≠ .ok none := by
  cases hc : attestationChecks env a with
  | error x =>
    simp only [handleAttestation, hc, Prod.mk.injEq] at h
    exact Or.inl h.2.symm
  | ok r =>
    rcases hw : reg.registerAttestation r s with ⟨w, t⟩
    simp only [handleAttestation, hc, hw, Prod.mk.injEq] at h
    obtain ⟨h, rfl⟩ := h
    refine Or.inr ⟨r, w, hw, ?_⟩
    rintro rfl
    cases h

/-- C14: a failed authentication leaves the state that the read call left, unless
the write call itself failed. -/
theorem C14_failed_authentication {a : AssertionArgs} {s s' : σ} {e : Exc}
    (h : handleAssertion env reg a s = (.error e, s')) :
    s' = s ∨ s' = (reg.getCredentialData a.credential.rawId s).2 ∨
    ∃ r w, reg.registerAssertion r (reg.getCredentialData a.credential.rawId s).2 = (w, s') ∧
      w ≠ .ok none := by
  rcases handleAssertion_cases env reg a s with ⟨x, -, h1⟩ | ⟨al, rd, s1, h1, h2, h3⟩
  · rw [h1] at h
    exact Or.inl (Prod.mk.inj h).2.symm
  · rw [h2]
    rcases h3 with ⟨x, -, h3⟩ | ⟨cd, rfl, ⟨x, -, h3⟩ | ⟨r, w, s2, h4, h5, h6⟩⟩
    · rw [h3] at h
      exact Or.inr (Or.inl (Prod.mk.inj h).2.symm)
    · rw [h3] at h
      exact Or.inr (Or.inl (Prod.mk.inj h).2.symm)
    · rw [h6] at h
      obtain ⟨h, rfl⟩ := Prod.mk.inj h
      refine Or.inr (Or.inr ⟨r, w, h5, ?_⟩)
      rintro rfl
      cases h

/-! ## C15 -/

theorem finalise_error {α : Type} {e : Exc} (h : NotBase e) :
    ∃ x, (finalise (.error e) : Py α) = .error (.lib x) := by
  cases e with
  | base n => exact absurd rfl (h n)
  | lib x => exact ⟨x, rfl⟩
  | _ => exact ⟨.internal, rfl⟩

theorem checkWrite_error {w : Py (Option String)} (hw : Ordinary w) :
    checkWrite w = .ok () ∨ checkWrite w = .error (.lib .registration) := by
  cases w with
  | ok o =>
    cases o with
    | none => exact Or.inl rfl
    | some v => exact Or.inr rfl
  | error e =>
    refine Or.inr ?_
    have : e.isException = true := by
      cases e with
      | base n => exact absurd rfl (hw _ rfl n)
      | _ => rfl
    simp [checkWrite, this, raise]

/-- C15, registration: only errors of the package escape. -/
theorem C15_registration_errors (henv : OrdinaryEnv env) (hreg : OrdinaryRegistrar reg)
    {a : AttestationArgs} {s s' : σ} {e : Exc}
    (h : handleAttestation env reg a s = (.error e, s')) : ∃ x, e = .lib x := by
  cases hc : attestationChecks env a with
  | error x =>
    simp only [handleAttestation, hc, Prod.mk.injEq] at h
    obtain ⟨y, hy⟩ := finalise_error (α := Unit) (raises_attestationChecks henv a x hc)
    rw [hy] at h
    exact ⟨y, by simpa using h.1.symm⟩
  | ok r =>
    simp only [handleAttestation, hc, Prod.mk.injEq] at h
    rcases checkWrite_error (hreg.registerAttestation r s) with hw | hw
    · rw [hw] at h; cases h.1
    · rw [hw] at h
      exact ⟨.registration, by simpa [finalise, Exc.isWebAuthn] using h.1.symm⟩

/-- C15, authentication: only errors of the package escape. -/
theorem C15_authentication_errors (henv : OrdinaryEnv env) (hreg : OrdinaryRegistrar reg)
    {a : AssertionArgs} {s s' : σ} {e : Exc}
    (h : handleAssertion env reg a s = (.error e, s')) : ∃ x, e = .lib x := by
  have key : ∀ {x : Exc} {t : σ}, NotBase x → handleAssertion env reg a s = (finalise (.error x), t) →
      ∃ y, e = .lib y := by
    intro x t hx hh
    obtain ⟨y, hy⟩ := finalise_error (α := Unit) hx
    rw [hh, hy] at h
    exact ⟨y, by simpa using (Prod.mk.inj h).1.symm⟩
  rcases handleAssertion_cases env reg a s with ⟨x, h0, h1⟩ | ⟨al, rd, s1, h1, h2, h3⟩
  · exact key (raises_assertionPre env a x h0) h1
  · rcases h3 with ⟨x, hx, h3⟩ | ⟨cd, rfl, ⟨x, h4, h3⟩ | ⟨r, w, s2, h4, h5, h6⟩⟩
    · refine key ?_ h3
      have hrd : Ordinary rd := by
        have := hreg.getCredentialData a.credential.rawId s
        rw [h2] at this
        exact this
      cases rd with
      | ok o =>
        cases o with
        | none => cases hx; exact notBase_lib _
        | some cd => cases hx
      | error y =>
        simp only [checkRead] at hx
        split_ifs at hx
        · cases hx; exact notBase_lib _
        · cases hx; exact hrd _ rfl
    · exact key (raises_assertionChecks henv a al cd x h4) h3
    · have hw : Ordinary w := by
        have := hreg.registerAssertion r s1
        rw [h5] at this
        exact this
      rw [h6] at h
      rcases checkWrite_error hw with hw | hw
      · rw [hw] at h; cases (Prod.mk.inj h).1
      · rw [hw] at h
        exact ⟨.registration, by simpa [finalise, Exc.isWebAuthn] using (Prod.mk.inj h).1.symm⟩

/-- C15: without any assumption on the dependencies, what escapes is an error of
the package or not an `Exception` at all. -/
theorem C15_registration_any {a : AttestationArgs} {s s' : σ} {e : Exc}
    (h : handleAttestation env reg a s = (.error e, s')) : (∃ x, e = .lib x) ∨ ∃ n, e = .base n := by
  have hf : ∀ {m : Py Unit} {e : Exc}, finalise m = .error e → (∃ x, e = .lib x) ∨ ∃ n, e = .base n := by
    intro m e he
    cases m with
    | ok u => cases he
    | error x => cases x <;> first | (cases he; exact Or.inl ⟨_, rfl⟩) | (cases he; exact Or.inr ⟨_, rfl⟩)
  cases hc : attestationChecks env a with
  | error x => simp only [handleAttestation, hc, Prod.mk.injEq] at h; exact hf h.1
  | ok r => simp only [handleAttestation, hc, Prod.mk.injEq] at h; exact hf h.1

theorem C15_authentication_any {a : AssertionArgs} {s s' : σ} {e : Exc}
    (h : handleAssertion env reg a s = (.error e, s')) : (∃ x, e = .lib x) ∨ ∃ n, e = .base n := by
  have hf : ∀ {m : Py Unit} {e : Exc}, finalise m = .error e → (∃ x, e = .lib x) ∨ ∃ n, e = .base n := by
    intro m e he
    cases m with
    | ok u => cases he
    | error x => cases x <;> first | (cases he; exact Or.inl ⟨_, rfl⟩) | (cases he; exact Or.inr ⟨_, rfl⟩)
  rcases handleAssertion_cases env reg a s with ⟨x, -, h1⟩ | ⟨al, rd, s1, -, -, h3⟩
  · rw [h1] at h; exact hf (Prod.mk.inj h).1
  · rcases h3 with ⟨x, -, h3⟩ | ⟨cd, -, ⟨x, -, h3⟩ | ⟨r, w, s2, -, -, h6⟩⟩
    · rw [h3] at h; exact hf (Prod.mk.inj h).1
    · rw [h3] at h; exact hf (Prod.mk.inj h).1
    · rw [h6] at h; exact hf (Prod.mk.inj h).1

/-- C15: an exception of the checks that is not of the package (here: any that is
an `Exception`) surfaces as `InternalError`. -/
theorem foreign_is_internal {a : AttestationArgs} {s : σ} {e : Exc}
    (h : attestationChecks env a = .error e) (h1 : ∀ x, e ≠ .lib x) (h2 : NotBase e) :
    handleAttestation env reg a s = (.error (.lib .internal), s) := by
  simp only [handleAttestation, h]
  cases e with
  | lib x => exact absurd rfl (h1 x)
  | base n => exact absurd rfl (h2 n)
  | _ => rfl

/-- The demo environment and registrar raise only ordinary exceptions. -/
theorem demo_ordinary : OrdinaryEnv Demo.env where
  jsonLoads := fun t e he n hn => by
    have := Json.raises_loads t e he
    rw [hn] at this
    cases this
  cborLoad := fun b e he n hn => by
    have := Cbor.raises_load b e he
    rw [hn] at this
    cases this
  ecPoint := fun c x y e he n hn => by
    subst hn
    simp only [Demo.env] at he
    split_ifs at he
    cases he
  ed25519Load := fun _ e he => by cases he
  ed448Load := fun _ e he => by cases he
  ecdsaVerify := fun k h sig data e he n hn => by
    subst hn
    rw [Demo.ecdsaVerify_eq, Demo.check] at he
    split_ifs at he
    cases he
  eddsaVerify := fun k sig data e he n hn => by
    subst hn
    simp only [Demo.env, Demo.check] at he
    split_ifs at he
    cases he
  loadCert := fun b e he n hn => by
    subst hn
    simp only [Demo.env] at he
    split at he <;> cases he
  publicKey := fun b c hc e he => by
    simp only [Demo.env] at hc
    split at hc
    · cases hc; cases he
    · cases hc; cases he
    · cases hc; cases he
    · cases hc
  keyAttestationExt := fun b c hc e he n hn => by
    subst hn
    simp only [Demo.env] at hc
    split at hc
    · cases hc
      simp only at he
      split_ifs at he
      cases he
    · cases hc; cases he
    · cases hc; cases he
    · cases hc
  decodeDer := fun t b e he n hn => by
    subst hn
    simp only [Demo.env, Der.decode] at he
    split at he <;> cases he

theorem demo_ordinary_registrar : OrdinaryRegistrar Demo.registrar where
  registerAttestation := fun r s e he => by
    simp only [Demo.registrar] at he
    split at he
    · cases he
    · split at he <;> cases he
  registerAssertion := fun r s e he => by
    simp only [Demo.registrar] at he
    split at he <;> cases he
  getCredentialData := fun id s e he => by cases he

/-! ## C16 -/

/-- C16: the write call of a valid registration raises, or returns anything but
`None`: `RegistrationError`. -/
theorem C16_registration_refused {a : AttestationArgs} {s s' : σ} {o : AttestationObject}
    {raw : Bytes} {w : Py (Option String)} (h1 : ExpectedOk env a.expectedOrigin)
    (h2 : AttestationOk env a o raw) (h3 : o.attStmt = .none)
    (h4 : reg.registerAttestation ⟨a.credential, o, .NONE, a.user, a.rp, none⟩ s = (w, s'))
    (h5 : w ≠ .ok none) (h6 : Ordinary w) :
    handleAttestation env reg a s = (.error (.lib .registration), s') := by
  have hc : attestationChecks env a = .ok ⟨a.credential, o, .NONE, a.user, a.rp, none⟩ :=
    attestationChecks_ok_iff.mpr ⟨h1, ⟨raw, h2⟩, h3, rfl, rfl, rfl, rfl, rfl⟩
  simp only [handleAttestation, hc, h4]
  rcases checkWrite_error h6 with hw | hw
  · exact absurd (checkWrite_ok_iff.mp hw) h5
  · rw [hw]; rfl

/-- C16: the same for authentication. -/
theorem C16_authentication_refused {a : AssertionArgs} {s s1 s2 : σ} {cd : CredentialData}
    {user : UserEntity} {rp : RpEntity} {ad : AuthData} {w : Py (Option String)}
    (h1 : ExpectedOk env a.expectedOrigin) (h2 : AllowOk a.allowCredentials a.credential.rawId)
    (h3 : reg.getCredentialData a.credential.rawId s = (.ok (some cd), s1))
    (h4 : AssertionOk env a cd user rp ad)
    (h5 : reg.registerAssertion ⟨a.credential, ad, user, rp⟩ s1 = (w, s2))
    (h6 : w ≠ .ok none) (h7 : Ordinary w) :
    handleAssertion env reg a s = (.error (.lib .registration), s2) := by
  obtain ⟨al, h1⟩ := expectedOk_iff.mp h1
  have hw := handleAssertion_write (assertionPre_ok_iff.mpr ⟨h1, h2⟩) h3
    ((assertionChecks_ok_iff h1).mpr ⟨rfl, h4⟩) h5
  rw [hw]
  rcases checkWrite_error h7 with hw | hw
  · exact absurd (checkWrite_ok_iff.mp hw) h6
  · rw [hw]; rfl

/-- C16: the read call raises: `RegistrationError`. -/
theorem C16_read_raises {a : AssertionArgs} {s s1 : σ} {e : Exc}
    (h1 : ExpectedOk env a.expectedOrigin) (h2 : AllowOk a.allowCredentials a.credential.rawId)
    (h3 : reg.getCredentialData a.credential.rawId s = (.error e, s1)) (h4 : NotBase e) :
    handleAssertion env reg a s = (.error (.lib .registration), s1) := by
  obtain ⟨al, h1⟩ := expectedOk_iff.mp h1
  refine handleAssertion_read (assertionPre_ok_iff.mpr ⟨h1, h2⟩) h3 (e := .lib .registration) ?_
  cases e with
  | base n => exact absurd rfl (h4 n)
  | _ => rfl

/-- C16: the read call finds nothing: `CredentialDataError`. -/
theorem C16_read_none {a : AssertionArgs} {s s1 : σ}
    (h1 : ExpectedOk env a.expectedOrigin) (h2 : AllowOk a.allowCredentials a.credential.rawId)
    (h3 : reg.getCredentialData a.credential.rawId s = (.ok none, s1)) :
    handleAssertion env reg a s = (.error (.lib .credentialData), s1) := by
  obtain ⟨al, h1⟩ := expectedOk_iff.mp h1
  exact handleAssertion_read (assertionPre_ok_iff.mpr ⟨h1, h2⟩) h3 (e := .lib .credentialData) rfl

/-- C16: a registrar that never answers `None` to a write never lets a ceremony
succeed. -/
theorem C16_refusing_registrar (h1 : ∀ r s, (reg.registerAttestation r s).1 ≠ .ok none)
    (h2 : ∀ r s, (reg.registerAssertion r s).1 ≠ .ok none) (a : AttestationArgs)
    (b : AssertionArgs) (s : σ) :
    (handleAttestation env reg a s).1 ≠ .ok () ∧ (handleAssertion env reg b s).1 ≠ .ok () := by
  constructor
  · intro h
    obtain ⟨r, -, hr⟩ := handleAttestation_ok_iff.mp (Prod.ext h rfl)
    exact h1 r s (by rw [hr])
  · intro h
    obtain ⟨_, _, s1, r, -, -, -, hr⟩ := handleAssertion_ok_iff.mp (Prod.ext h rfl)
    exact h2 r s1 (by rw [hr])

/-- In the demo world: an unknown credential. -/
example : handleAssertion Demo.env Demo.registrar Demo.authArgs [] =
    (.error (.lib .credentialData), []) :=
  C16_read_none Demo.expected_ok (by
    intro l hl
    cases hl
    exact ⟨⟨Demo.credId⟩, by simp, rfl⟩) rfl

/-- A registrar that takes nothing. -/
def full : Registrar Unit where
  registerAttestation := fun _ s => (.ok (some "full"), s)
  registerAssertion := fun _ s => (.error .typeError, s)
  getCredentialData := fun _ s => (.ok (some (Demo.stored 1)), s)

example : handleAttestation Demo.env full Demo.regArgs () = (.error (.lib .registration), ()) := by
  obtain ⟨h1, o, raw, h2, h3, -⟩ := attestation_accepts.mp (Demo.registration_ok [] rfl)
  exact C16_registration_refused h1 h2 h3 (w := .ok (some "full")) rfl (by simp) (by rintro _ ⟨⟩)

example : handleAssertion Demo.env full Demo.authArgs () = (.error (.lib .registration), ()) := by
  obtain ⟨h1, h2, cd, s1, u, rp, ad, h3, h4, -⟩ := assertion_accepts.mp (Demo.authentication_ok [])
  have hcd : cd = Demo.stored 1 := by
    change (Except.ok (Demo.lookup _ Demo.credId), _) = _ at h3
    rw [Demo.lookup_head] at h3
    cases h3
    rfl
  subst hcd
  exact C16_authentication_refused h1 h2 rfl h4 (w := .error .typeError) rfl (by simp)
    (by rintro _ ⟨⟩ n; simp)

/-! ## C54 -/

/-- C54, authentication: each failed check is reported by its documented error. -/
theorem C54_authentication_error {a : AssertionArgs} {s s1 : σ} {cd : CredentialData}
    {cdj raw sig : Bytes} {handle : Option Bytes} {x : LibErr}
    (h1 : ExpectedOk env a.expectedOrigin) (h2 : AllowOk a.allowCredentials a.credential.rawId)
    (h3 : reg.getCredentialData a.credential.rawId s = (.ok (some cd), s1))
    (h4 : a.credential.response = .assertion cdj raw sig handle)
    (h5 : AssertionFails env a cd cdj raw sig handle x) :
    handleAssertion env reg a s = (.error (.lib x), s1) := by
  obtain ⟨al, h1⟩ := expectedOk_iff.mp h1
  exact handleAssertion_checks (assertionPre_ok_iff.mpr ⟨h1, h2⟩) h3
    (assertionChecks_fails h1 h4 h5)

/-- C54, authentication, the other direction: for a response with well-formed
client data and authenticator data and a signature that the library judges, the
reported error is the one of the failed check. -/
theorem C54_authentication_error_exact {a : AssertionArgs} {s s1 : σ} {cd : CredentialData}
    {cdj raw sig : Bytes} {handle : Option Bytes} {c : ClientData} {o : Origin} {ad : AuthData}
    (h1 : ExpectedOk env a.expectedOrigin) (h2 : AllowOk a.allowCredentials a.credential.rawId)
    (h3 : reg.getCredentialData a.credential.rawId s = (.ok (some cd), s1))
    (h4 : a.credential.response = .assertion cdj raw sig handle)
    (h5 : ClientDataOf env cdj c) (h6 : OriginOf env c.origin o) (h7 : AuthDataOf env raw ad)
    (h8 : SignedBy env cd.publicKey sig (raw ++ env.sha256 cdj) ∨
      BadSignature env cd.publicKey sig (raw ++ env.sha256 cdj))
    (hreg : ∀ r, (reg.registerAssertion r s1).1 = .ok none) (x : LibErr) :
    (handleAssertion env reg a s).1 = .error (.lib x) ↔
      AssertionFails env a cd cdj raw sig handle x := by
  constructor
  · intro h
    rcases assertion_dichotomy a cd h4 h5 h6 h7 h8 with ⟨user, rp, ad, h9⟩ | ⟨y, h9⟩
    · have := (assertion_accepts (reg := reg) (s := s)
        (s' := (reg.registerAssertion ⟨a.credential, ad, user, rp⟩ s1).2)).mpr
        ⟨h1, h2, cd, s1, user, rp, ad, h3, h9, Prod.ext (hreg _) rfl⟩
      rw [this] at h
      cases h
    · rw [C54_authentication_error h1 h2 h3 h4 h9] at h
      cases h
      exact h9
  · intro h
    rw [C54_authentication_error h1 h2 h3 h4 h]

/-- C54: a credential that is not in the allow list. -/
theorem C54_not_allowed {a : AssertionArgs} {s : σ} (h1 : ExpectedOk env a.expectedOrigin)
    (h2 : ¬ AllowOk a.allowCredentials a.credential.rawId) :
    handleAssertion env reg a s = (.error (.lib .credentialNotAllowed), s) := by
  obtain ⟨al, h1⟩ := expectedOk_iff.mp h1
  refine handleAssertion_pre (e := .lib .credentialNotAllowed) ?_
  rw [allowOk_iff] at h2
  simp only [not_forall] at h2
  obtain ⟨l, hl, h2⟩ := h2
  simp only [assertionPre, h1, hl, ok_bind, require_false h2, error_bind]

/-- C54, registration: each failed check is reported by its documented error. -/
theorem C54_registration_error {a : AttestationArgs} {s : σ} {cdj ob : Bytes} {x : LibErr}
    (h1 : ExpectedOk env a.expectedOrigin) (h2 : a.credential.response = .attestation cdj ob)
    (h3 : AttestationFails env a cdj ob x) :
    handleAttestation env reg a s = (.error (.lib x), s) := by
  simp only [handleAttestation, attestationChecks_fails h1 h2 h3]
  rfl

/-- C54: an expected origin that is not an origin is an `OriginError`, or an
`InternalError` when `urlparse` raises; nothing is written. -/
theorem C54_bad_expected_origin {a : AttestationArgs} {s : σ}
    (h : ¬ ExpectedOk env a.expectedOrigin) :
    handleAttestation env reg a s = (.error (.lib .origin), s) ∨
    handleAttestation env reg a s = (.error (.lib .internal), s) := by
  rw [expectedOk_iff] at h
  cases he : extractAllowedOrigins env a.expectedOrigin with
  | ok l => exact absurd ⟨l, he⟩ h
  | error e =>
    have : attestationChecks env a = .error e := by
      simp only [attestationChecks, he, error_bind]
    rcases raises_extractAllowedOrigins env _ e he with rfl | rfl
    · left; simp only [handleAttestation, this]; rfl
    · right; simp only [handleAttestation, this]; rfl

end

/-! ### Cases of C54 in the demo world -/

namespace Fail

theorem authClient : ClientOk Demo.env Demo.authCdj "webauthn.get" Demo.challenge
    (.one Demo.origin) none :=
  clientOk_of Demo.json (clientData_client rfl) Demo.challengeText_ok
    (originAllowed_of Demo.expected_ok (by simp [originList])) .none

theorem allow : AllowOk Demo.authArgs.allowCredentials Demo.authArgs.credential.rawId := by
  intro l hl
  cases hl
  exact ⟨⟨Demo.credId⟩, by simp, rfl⟩

theorem authOk : AuthOk Demo.env Demo.authRaw Demo.authAd Demo.rp.id true none :=
  ⟨encodedAuthData_of Demo.codec Demo.authRaw_enc, Demo.rpHash_enc Demo.authRaw_enc rfl,
    Demo.flagSet_enc Demo.authRaw_enc (by decide),
    fun _ => Demo.flagSet_enc Demo.authRaw_enc (by decide), by intro l hl; cases hl⟩

theorem read (cd : CredentialData) :
    Demo.registrar.getCredentialData Demo.authArgs.credential.rawId [(Demo.credId, cd)] =
      (.ok (some cd), [(Demo.credId, cd)]) := by
  show (Except.ok (Demo.lookup _ Demo.credId), _) = _
  rw [Demo.lookup_head]

/-- A second authentication with the same response: the counter is not greater. -/
example : handleAssertion Demo.env Demo.registrar Demo.authArgs [(Demo.credId, Demo.stored 2)] =
    (.error (.lib .signatureCount), [(Demo.credId, Demo.stored 2)]) := by
  refine C54_authentication_error Demo.expected_ok allow (read _) rfl
    (.signatureCount Demo.user Demo.rp Demo.authAd .fromHandle (.arg _) authClient authOk
      Demo.signature_ok ?_)
  intro h
  obtain ⟨c, hc, hlt⟩ := h 2 rfl rfl
  have h2 := (authDataOf_head (encodedAuthData_of Demo.codec Demo.authRaw_enc)).2.2.2
  rw [bigEndian_iff] at hc h2
  rw [hc, ← h2] at hlt
  exact absurd hlt (by decide)

/-- Another challenge. -/
example : handleAssertion Demo.env Demo.registrar { Demo.authArgs with expectedChallenge := [1] }
    [(Demo.credId, Demo.stored 1)] =
    (.error (.lib .challenge), [(Demo.credId, Demo.stored 1)]) := by
  obtain ⟨cd, h1, h2, h3, -⟩ := authClient
  exact C54_authentication_error Demo.expected_ok allow (read _) rfl
    (.client Demo.user Demo.rp _ .fromHandle (.arg _) (.challenge cd _ h1 h2 h3 (by decide)))

end Fail

end WebAuthn.Props
