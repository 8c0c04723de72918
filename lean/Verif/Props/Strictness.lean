import Verif.Props.Ceremony
import Verif.Spec.Strictness

/-!
# Stricter expectations refuse more, and nothing else (C87)
-/

namespace WebAuthn.Props

open WebAuthn WebAuthn.Spec

section
variable {σ : Type} {env : Env} {reg : Registrar σ}

theorem authDataOf_unique {raw : Bytes} {d d' : AuthData} (h : AuthDataOf env raw d)
    (h' : AuthDataOf env raw d') : d = d' := by
  rw [← parseAuthenticatorData_ok_iff] at h h'
  rw [h] at h'
  exact Except.ok.inj h'

/-! ## Looser expectations accept more, with the same effect -/

theorem originAllowed_within {e e' : ExpectedOrigin} {s : String} (h : OriginsWithin env e e')
    (ha : OriginAllowed env e s) : OriginAllowed env e' s := by
  obtain ⟨o, h1, t, ht, h2⟩ := ha
  exact ⟨o, h1, h t ht o h2⟩

theorem clientOk_within {cdj : Bytes} {type : String} {ch : Bytes} {e e' : ExpectedOrigin}
    {tb : Option TokenBinding} (h : OriginsWithin env e e') (hc : ClientOk env cdj type ch e tb) :
    ClientOk env cdj type ch e' tb := by
  obtain ⟨cd, h1, h2, h3, h4, h5⟩ := hc
  exact ⟨cd, h1, h2, h3, originAllowed_within h h4, h5⟩

theorem authOk_looser {raw : Bytes} {ad : AuthData} {rpId : String} {uv uv' : Bool}
    {x x' : Option (List ExtId)} (hu : uv' = true → uv = true) (hx : AsksFor x x')
    (h : AuthOk env raw ad rpId uv x) : AuthOk env raw ad rpId uv' x' := by
  obtain ⟨h1, h2, h3, h4, h5⟩ := h
  refine ⟨h1, h2, h3, fun hh => h4 (hu hh), fun l' hl' i hi => ?_⟩
  obtain ⟨l, hl, hi'⟩ := hx l' hl' i hi
  exact h5 l hl i hi'

/-- C87, logins: what stricter expectations accept is accepted by looser ones (if these name origins
at all), and recorded alike. -/
theorem C87_login_looser {a a' : AssertionArgs} {s s' : σ} (h : StricterLogin env a a')
    (he : ExpectedOk env a'.expectedOrigin) (ha : handleAssertion env reg a s = (.ok (), s')) :
    handleAssertion env reg a' s = (.ok (), s') := by
  rw [C17_authentication_accepts_exactly] at ha ⊢
  obtain ⟨-, h2, cd, s1, user, rp, ad, h3, ⟨cdj, raw, sig, handle, g1, g2, g3, g4, g5, g6, g7⟩, h5⟩ := ha
  refine ⟨he, fun l' hl' => ?_, cd, s1, user, rp, ad, h.credential ▸ h3, ⟨cdj, raw, sig, handle,
    h.credential ▸ g1, h.user ▸ g2, h.rp ▸ g3, ?_, ?_, g6, fun n hn hi => ?_⟩, h.credential ▸ h5⟩
  · obtain ⟨l, hl, hw⟩ := h.allowed l' hl'
    obtain ⟨c, hc, hid⟩ := h2 l hl
    obtain ⟨c', hc', hid'⟩ := hw c hc
    exact ⟨c', hc', by rw [hid', hid, h.credential]⟩
  · exact h.challenge ▸ h.tokenBinding ▸ clientOk_within h.origins g4
  · exact authOk_looser h.verification h.extensions g5
  · refine g7 n hn ?_
    cases hc : a.ignoreCloneError with
    | false => rfl
    | true => rw [h.clones hc] at hi; cases hi

/-- C87, registrations. -/
theorem C87_registration_looser {a a' : AttestationArgs} {s s' : σ} (h : StricterRegistration env a a')
    (he : ExpectedOk env a'.expectedOrigin) (ha : handleAttestation env reg a s = (.ok (), s')) :
    handleAttestation env reg a' s = (.ok (), s') := by
  rw [C18_registration_accepts_exactly_partial] at ha ⊢
  obtain ⟨-, o, raw, ⟨cdj, ob, g1, g2, g3, g4, g5⟩, h2, h3⟩ := ha
  refine ⟨he, o, raw, ⟨cdj, ob, h.credential ▸ g1, ?_, g3, ?_, g5⟩, h2,
    h.credential ▸ h.user ▸ h.rp ▸ h3⟩
  · exact h.challenge ▸ h.tokenBinding ▸ clientOk_within h.origins g2
  · exact h.rp ▸ authOk_looser h.verification h.extensions g4

/-! ## Alternatives and requirements -/

theorem within_left {l m : List String} : OriginsWithin env (.many l) (.many (l ++ m)) :=
  fun s hs _ ho => ⟨s, List.mem_append_left _ hs, ho⟩

theorem within_right {l m : List String} : OriginsWithin env (.many m) (.many (l ++ m)) :=
  fun s hs _ ho => ⟨s, List.mem_append_right _ hs, ho⟩

theorem expectedOk_append {l m : List String} (hl : ExpectedOk env (.many l)) (hm : ExpectedOk env (.many m)) :
    ExpectedOk env (.many (l ++ m)) := by
  refine ⟨?_, fun s hs => ?_⟩
  · show l ++ m ≠ []
    have : l ≠ [] := hl.1
    simp [this]
  · rcases List.mem_append.mp hs with hs | hs
    · exact hl.2 s hs
    · exact hm.2 s hs

theorem originAllowed_append {l m : List String} {s : String} :
    OriginAllowed env (.many (l ++ m)) s ↔ OriginAllowed env (.many l) s ∨ OriginAllowed env (.many m) s := by
  constructor
  · rintro ⟨o, h1, t, ht, h2⟩
    rcases List.mem_append.mp ht with ht | ht
    · exact Or.inl ⟨o, h1, t, ht, h2⟩
    · exact Or.inr ⟨o, h1, t, ht, h2⟩
  · rintro (h | h)
    · exact originAllowed_within within_left h
    · exact originAllowed_within within_right h

/-- C87: origins are alternatives. -/
theorem C87_login_origins {a : AssertionArgs} {l m : List String} {s s' : σ}
    (hl : ExpectedOk env (.many l)) (hm : ExpectedOk env (.many m)) :
    handleAssertion env reg { a with expectedOrigin := .many (l ++ m) } s = (.ok (), s') ↔
      handleAssertion env reg { a with expectedOrigin := .many l } s = (.ok (), s') ∨
      handleAssertion env reg { a with expectedOrigin := .many m } s = (.ok (), s') := by
  constructor
  · simp only [C17_authentication_accepts_exactly]
    rintro ⟨-, h2, cd, s1, user, rp, ad, h3, ⟨cdj, raw, sig, handle, g1, g2, g3,
      ⟨c, f1, f2, f3, f4, f5⟩, g5⟩, h5⟩
    rcases originAllowed_append.mp f4 with f4 | f4
    · exact Or.inl ⟨hl, h2, cd, s1, user, rp, ad, h3, ⟨cdj, raw, sig, handle, g1, g2, g3,
        ⟨c, f1, f2, f3, f4, f5⟩, g5⟩, h5⟩
    · exact Or.inr ⟨hm, h2, cd, s1, user, rp, ad, h3, ⟨cdj, raw, sig, handle, g1, g2, g3,
        ⟨c, f1, f2, f3, f4, f5⟩, g5⟩, h5⟩
  · have both := expectedOk_append hl hm
    have hc : ∀ {x : Option (List Descriptor)}, AllowedWithin x x :=
      fun l' hl' => ⟨l', hl', fun c hc => ⟨c, hc, rfl⟩⟩
    have hx : ∀ {x : Option (List ExtId)}, AsksFor x x := fun l' hl' i hi => ⟨l', hl', hi⟩
    rintro (h | h)
    · refine C87_login_looser ?_ both h
      exact ⟨rfl, rfl, rfl, rfl, rfl, within_left, hc, id, hx, id⟩
    · refine C87_login_looser ?_ both h
      exact ⟨rfl, rfl, rfl, rfl, rfl, within_right, hc, id, hx, id⟩

/-- C87: origins are alternatives. -/
theorem C87_registration_origins {a : AttestationArgs} {l m : List String} {s s' : σ}
    (hl : ExpectedOk env (.many l)) (hm : ExpectedOk env (.many m)) :
    handleAttestation env reg { a with expectedOrigin := .many (l ++ m) } s = (.ok (), s') ↔
      handleAttestation env reg { a with expectedOrigin := .many l } s = (.ok (), s') ∨
      handleAttestation env reg { a with expectedOrigin := .many m } s = (.ok (), s') := by
  constructor
  · simp only [C18_registration_accepts_exactly_partial]
    rintro ⟨-, o, raw, ⟨cdj, ob, g1, ⟨c, f1, f2, f3, f4, f5⟩, g3⟩, h2⟩
    rcases originAllowed_append.mp f4 with f4 | f4
    · exact Or.inl ⟨hl, o, raw, ⟨cdj, ob, g1, ⟨c, f1, f2, f3, f4, f5⟩, g3⟩, h2⟩
    · exact Or.inr ⟨hm, o, raw, ⟨cdj, ob, g1, ⟨c, f1, f2, f3, f4, f5⟩, g3⟩, h2⟩
  · have both := expectedOk_append hl hm
    have hx : ∀ {x : Option (List ExtId)}, AsksFor x x := fun l' hl' i hi => ⟨l', hl', hi⟩
    rintro (h | h)
    · refine C87_registration_looser ?_ both h
      exact ⟨rfl, rfl, rfl, rfl, rfl, within_left, id, hx⟩
    · refine C87_registration_looser ?_ both h
      exact ⟨rfl, rfl, rfl, rfl, rfl, within_right, id, hx⟩

theorem extensionsOk_append {l m : List ExtId} {got : Option Extensions} :
    ExtensionsOk (some (l ++ m)) got ↔ ExtensionsOk (some l) got ∧ ExtensionsOk (some m) got := by
  constructor
  · refine fun h => ⟨?_, ?_⟩
    · rintro _ ⟨⟩ i hi
      exact h _ rfl i (List.mem_append_left _ hi)
    · rintro _ ⟨⟩ i hi
      exact h _ rfl i (List.mem_append_right _ hi)
  · rintro ⟨h, h'⟩ _ ⟨⟩ i hi
    rcases List.mem_append.mp hi with hi | hi
    · exact h _ rfl i hi
    · exact h' _ rfl i hi

/-- C87: extensions are requirements. -/
theorem C87_login_extensions {a : AssertionArgs} {l m : List ExtId} {s s' : σ} :
    handleAssertion env reg { a with expectedExtensions := some (l ++ m) } s = (.ok (), s') ↔
      handleAssertion env reg { a with expectedExtensions := some l } s = (.ok (), s') ∧
      handleAssertion env reg { a with expectedExtensions := some m } s = (.ok (), s') := by
  simp only [C17_authentication_accepts_exactly]
  constructor
  · rintro ⟨h1, h2, cd, s1, user, rp, ad, h3, ⟨cdj, raw, sig, handle, g1, g2, g3, g4,
      ⟨f1, f2, f3, f4, f5⟩, g6⟩, h5⟩
    obtain ⟨f6, f7⟩ := extensionsOk_append.mp f5
    exact ⟨⟨h1, h2, cd, s1, user, rp, ad, h3, ⟨cdj, raw, sig, handle, g1, g2, g3, g4,
      ⟨f1, f2, f3, f4, f6⟩, g6⟩, h5⟩, ⟨h1, h2, cd, s1, user, rp, ad, h3, ⟨cdj, raw, sig, handle, g1, g2,
      g3, g4, ⟨f1, f2, f3, f4, f7⟩, g6⟩, h5⟩⟩
  · rintro ⟨⟨h1, h2, cd, s1, user, rp, ad, h3, ⟨cdj, raw, sig, handle, g1, g2, g3, g4,
      ⟨f1, f2, f3, f4, f5⟩, g6⟩, h5⟩, -, -, -, -, -, -, ad', -, ⟨_, raw', _, _, g1', -, -, -,
      ⟨f1', -, -, -, f5'⟩, -⟩, -⟩
    obtain rfl : raw = raw' := by
      have := g1.symm.trans g1'
      cases this
      rfl
    obtain rfl := authDataOf_unique f1 f1'
    exact ⟨h1, h2, cd, s1, user, rp, ad, h3, ⟨cdj, raw, sig, handle, g1, g2, g3, g4,
      ⟨f1, f2, f3, f4, extensionsOk_append.mpr ⟨f5, f5'⟩⟩, g6⟩, h5⟩

/-- C87: extensions are requirements. -/
theorem C87_registration_extensions {a : AttestationArgs} {l m : List ExtId} {s s' : σ} :
    handleAttestation env reg { a with expectedExtensions := some (l ++ m) } s = (.ok (), s') ↔
      handleAttestation env reg { a with expectedExtensions := some l } s = (.ok (), s') ∧
      handleAttestation env reg { a with expectedExtensions := some m } s = (.ok (), s') := by
  simp only [C18_registration_accepts_exactly_partial]
  constructor
  · rintro ⟨h1, o, raw, ⟨cdj, ob, g1, g2, g3, ⟨f1, f2, f3, f4, f5⟩, g4⟩, h2⟩
    obtain ⟨f6, f7⟩ := extensionsOk_append.mp f5
    exact ⟨⟨h1, o, raw, ⟨cdj, ob, g1, g2, g3, ⟨f1, f2, f3, f4, f6⟩, g4⟩, h2⟩,
      ⟨h1, o, raw, ⟨cdj, ob, g1, g2, g3, ⟨f1, f2, f3, f4, f7⟩, g4⟩, h2⟩⟩
  · rintro ⟨⟨h1, o, raw, ⟨cdj, ob, g1, g2, g3, ⟨f1, f2, f3, f4, f5⟩, g4⟩, h2⟩, -, o', raw',
      ⟨cdj', ob', g1', -, g3', ⟨-, -, -, -, f5'⟩, -⟩, -⟩
    obtain rfl : ob = ob' := by
      have := g1.symm.trans g1'
      cases this
      rfl
    obtain ⟨rfl, rfl⟩ : o = o' ∧ raw = raw' := by
      rw [← parseAttestationObject_ok_iff] at g3 g3'
      rw [g3] at g3'
      simpa using g3'
    exact ⟨h1, o, raw, ⟨cdj, ob, g1, g2, g3, ⟨f1, f2, f3, f4, extensionsOk_append.mpr ⟨f5, f5'⟩⟩, g4⟩, h2⟩

/-- C87: user verification is a requirement. -/
theorem C87_login_verification {a : AssertionArgs} {s s' : σ} :
    handleAssertion env reg { a with requireUserVerification := true } s = (.ok (), s') ↔
      handleAssertion env reg { a with requireUserVerification := false } s = (.ok (), s') ∧
      ∃ cdj raw sig handle, a.credential.response = .assertion cdj raw sig handle ∧ FlagSet raw 2 := by
  simp only [C17_authentication_accepts_exactly]
  constructor
  · rintro ⟨h1, h2, cd, s1, user, rp, ad, h3, ⟨cdj, raw, sig, handle, g1, g2, g3, g4,
      ⟨f1, f2, f3, f4, f5⟩, g6⟩, h5⟩
    exact ⟨⟨h1, h2, cd, s1, user, rp, ad, h3, ⟨cdj, raw, sig, handle, g1, g2, g3, g4,
      ⟨f1, f2, f3, nofun, f5⟩, g6⟩, h5⟩, cdj, raw, sig, handle, g1, f4 rfl⟩
  · rintro ⟨⟨h1, h2, cd, s1, user, rp, ad, h3, ⟨cdj, raw, sig, handle, g1, g2, g3, g4,
      ⟨f1, f2, f3, f4, f5⟩, g6⟩, h5⟩, cdj', raw', sig', handle', g1', hf⟩
    obtain rfl : raw = raw' := by
      have := g1.symm.trans g1'
      cases this
      rfl
    exact ⟨h1, h2, cd, s1, user, rp, ad, h3, ⟨cdj, raw, sig, handle, g1, g2, g3, g4,
      ⟨f1, f2, f3, fun _ => hf, f5⟩, g6⟩, h5⟩

/-- C87: user verification is a requirement. -/
theorem C87_registration_verification {a : AttestationArgs} {s s' : σ} :
    handleAttestation env reg { a with requireUserVerification := true } s = (.ok (), s') ↔
      handleAttestation env reg { a with requireUserVerification := false } s = (.ok (), s') ∧
      ∃ cdj ob o raw, a.credential.response = .attestation cdj ob ∧ AttObjOf env ob o raw ∧ FlagSet raw 2 := by
  simp only [C18_registration_accepts_exactly_partial]
  constructor
  · rintro ⟨h1, o, raw, ⟨cdj, ob, g1, g2, g3, ⟨f1, f2, f3, f4, f5⟩, g4⟩, h2⟩
    exact ⟨⟨h1, o, raw, ⟨cdj, ob, g1, g2, g3, ⟨f1, f2, f3, nofun, f5⟩, g4⟩, h2⟩, cdj, ob, o, raw, g1, g3,
      f4 rfl⟩
  · rintro ⟨⟨h1, o, raw, ⟨cdj, ob, g1, g2, g3, ⟨f1, f2, f3, f4, f5⟩, g4⟩, h2⟩, cdj', ob', o', raw', g1', g3',
      hf⟩
    obtain rfl : ob = ob' := by
      have := g1.symm.trans g1'
      cases this
      rfl
    obtain ⟨rfl, rfl⟩ : o = o' ∧ raw = raw' := by
      rw [← parseAttestationObject_ok_iff] at g3 g3'
      rw [g3] at g3'
      simpa using g3'
    exact ⟨h1, o, raw, ⟨cdj, ob, g1, g2, g3, ⟨f1, f2, f3, fun _ => hf, f5⟩, g4⟩, h2⟩

/-! ## Order and repetition -/

theorem allowed_same {e e' : ExpectedOrigin} {l l' : List Origin}
    (h : extractAllowedOrigins env e = .ok l) (h' : extractAllowedOrigins env e' = .ok l')
    (hw : OriginsWithin env e e') (hw' : OriginsWithin env e' e) (o : Origin) :
    l.contains o = l'.contains o := by
  rw [Bool.eq_iff_iff, List.contains_iff_mem, List.contains_iff_mem, mem_allowed_iff h, mem_allowed_iff h']
  constructor
  · rintro ⟨s, hs, ho⟩
    exact hw s hs o ho
  · rintro ⟨s, hs, ho⟩
    exact hw' s hs o ho

theorem checkClientData_same {cdj : Bytes} {type : String} {ch : Bytes} {l l' : List Origin}
    {tb : Option TokenBinding} (h : ∀ o, l.contains o = l'.contains o) :
    checkClientData env cdj type ch l tb = checkClientData env cdj type ch l' tb := by
  unfold checkClientData
  simp only [h]

theorem checkExtensions_same {x x' : Option (List ExtId)} (h : AsksFor x x') (h' : AsksFor x' x)
    (got : Option Extensions) : checkExtensions x got = checkExtensions x' got := by
  have all : ∀ {l l' : List ExtId}, (∀ i, i ∈ l ↔ i ∈ l') →
      checkExtensions (some l) got = checkExtensions (some l') got := by
    intro l l' hl
    have : (l.all fun e => extAttrPresent got e.key) = (l'.all fun e => extAttrPresent got e.key) := by
      rw [Bool.eq_iff_iff, List.all_eq_true, List.all_eq_true]
      exact ⟨fun h i hi => h i ((hl i).mpr hi), fun h i hi => h i ((hl i).mp hi)⟩
    show require _ _ = require _ _
    rw [this]
  have none_nil : checkExtensions none got = checkExtensions (some []) got := rfl
  cases x with
  | none =>
    cases x' with
    | none => rfl
    | some l' =>
      rw [none_nil]
      refine all fun i => ⟨nofun, fun hi => ?_⟩
      obtain ⟨_, h1, -⟩ := h _ rfl i hi
      cases h1
  | some l =>
    cases x' with
    | none =>
      rw [none_nil]
      refine all fun i => ⟨fun hi => ?_, nofun⟩
      obtain ⟨_, h1, -⟩ := h' _ rfl i hi
      cases h1
    | some l' =>
      refine all fun i => ⟨fun hi => ?_, fun hi => ?_⟩
      · obtain ⟨_, h1, h2⟩ := h' _ rfl i hi
        cases h1
        exact h2
      · obtain ⟨_, h1, h2⟩ := h _ rfl i hi
        cases h1
        exact h2

theorem bool_same {b b' : Bool} (h : b = true → b' = true) (h' : b' = true → b = true) : b = b' := by
  cases b <;> cases b' <;> simp_all

/-- C87: expectations that ask for the same, in whatever order and however often, have the same
outcome and effect. -/
theorem C87_registration_same {a a' : AttestationArgs} {s : σ} (h : StricterRegistration env a a')
    (h' : StricterRegistration env a' a) (he : ExpectedOk env a.expectedOrigin)
    (he' : ExpectedOk env a'.expectedOrigin) :
    handleAttestation env reg a s = handleAttestation env reg a' s := by
  obtain ⟨l, hl⟩ := expectedOk_iff.mp he
  obtain ⟨l', hl'⟩ := expectedOk_iff.mp he'
  have hv := bool_same h'.verification h.verification
  have : attestationChecks env a = attestationChecks env a' := by
    unfold attestationChecks checkAuthData
    simp only [hl, hl', ok_bind, h.credential, h.user, h.rp, h.challenge, h.tokenBinding, hv,
      checkExtensions_same h.extensions h'.extensions,
      checkClientData_same (allowed_same hl hl' h.origins h'.origins)]
  unfold handleAttestation
  rw [this]

theorem pre_same {a a' : AssertionArgs} {l l' : List Origin} (h : StricterLogin env a a')
    (h' : StricterLogin env a' a) (hl : extractAllowedOrigins env a.expectedOrigin = .ok l)
    (hl' : extractAllowedOrigins env a'.expectedOrigin = .ok l') :
    (assertionPre env a = .ok l ∧ assertionPre env a' = .ok l') ∨
    ∃ e, assertionPre env a = .error e ∧ assertionPre env a' = .error e := by
  have hw := h.allowed
  have hw' := h'.allowed
  have hc := h.credential
  unfold assertionPre
  rw [hl, hl', ok_bind, ok_bind]
  cases hm : a.allowCredentials with
  | none =>
    cases hm' : a'.allowCredentials with
    | none => exact Or.inl ⟨rfl, rfl⟩
    | some m' =>
      obtain ⟨m, h1, -⟩ := hw _ hm'
      rw [hm] at h1
      cases h1
  | some m =>
    obtain ⟨m', hm', h2⟩ := hw' _ hm
    obtain ⟨m1, h3, h4⟩ := hw _ hm'
    rw [hm] at h3
    cases h3
    rw [hm']
    have : (m.any fun c => c.id == a.credential.rawId) = (m'.any fun c => c.id == a'.credential.rawId) := by
      rw [Bool.eq_iff_iff, List.any_eq_true, List.any_eq_true]
      simp only [beq_iff_eq, hc]
      constructor
      · rintro ⟨c, g1, g2⟩
        obtain ⟨c', g3, g4⟩ := h4 c g1
        exact ⟨c', g3, g4.trans g2⟩
      · rintro ⟨c, g1, g2⟩
        obtain ⟨c', g3, g4⟩ := h2 c g1
        exact ⟨c', g3, g4.trans g2⟩
    simp only [this]
    cases m'.any fun c => c.id == a'.credential.rawId with
    | true => exact Or.inl ⟨rfl, rfl⟩
    | false => exact Or.inr ⟨_, rfl, rfl⟩

/-- C87, logins. -/
theorem C87_login_same {a a' : AssertionArgs} {s : σ} (h : StricterLogin env a a')
    (h' : StricterLogin env a' a) (he : ExpectedOk env a.expectedOrigin)
    (he' : ExpectedOk env a'.expectedOrigin) :
    handleAssertion env reg a s = handleAssertion env reg a' s := by
  obtain ⟨l, hl⟩ := expectedOk_iff.mp he
  obtain ⟨l', hl'⟩ := expectedOk_iff.mp he'
  have hv := bool_same h'.verification h.verification
  have hi := bool_same h.clones h'.clones
  have checks : ∀ cd, assertionChecks env a l cd = assertionChecks env a' l' cd := by
    intro cd
    unfold assertionChecks checkAuthData
    simp only [h.credential, h.user, h.rp, h.challenge, h.tokenBinding, hv, hi,
      checkExtensions_same h.extensions h'.extensions,
      checkClientData_same (allowed_same hl hl' h.origins h'.origins)]
  unfold handleAssertion
  rcases pre_same h h' hl hl' with ⟨h1, h2⟩ | ⟨e, h1, h2⟩
  · simp only [h1, h2, h.credential, checks]
  · simp only [h1, h2]

end

end WebAuthn.Props
