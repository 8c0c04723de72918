import Verif.Props.ExtensionsCeremony
import Verif.Props.Outcome

/-!
# C08 on the bytes of authenticator data, C15 for foreign exceptions
-/

namespace WebAuthn.Props

open WebAuthn WebAuthn.Spec

/-! ## C08 -/

theorem inMap_of_missing {d : Dict} {i : ExtId} (h : Missing d (.str (extensionName i))) :
    ¬ InMap d i := by
  rintro ⟨v, hv, hne⟩
  rcases h with h | h
  · exact not_absent_of_lookup hv h
  · exact hne (lookup_unique hv h)

theorem hasExtension_iff {d : Dict} {e : Extensions} (h : ExtensionsOf d e) (i : ExtId) :
    HasExtension e i ↔ InMap d i := by
  have key : ∀ {α : Type} {enc : α → PyVal} (o : Option α),
      OptMember enc d (.str (extensionName i)) o → (∀ a, enc a ≠ .none) → (o ≠ none ↔ InMap d i) := by
    intro α enc o ho hne
    cases o with
    | none => exact ⟨fun h => absurd rfl h, fun h => absurd h (inMap_of_missing ho)⟩
    | some a => exact ⟨fun _ => ⟨_, ho, hne a⟩, fun _ => nofun⟩
  obtain ⟨-, h1, h2, h3, h4, h5, h6, h7, h8, h9⟩ := h
  cases i with
  | APPID => exact key _ h1 nofun
  | TX_AUTH_SIMPLE => exact key _ h2 nofun
  | TX_AUTH_GENERIC => exact key _ h3 nofun
  | AUTHN_SEL => exact key _ h4 nofun
  | EXTS =>
    simp only [HasExtension]
    cases he : e.exts with
    | none =>
      rw [he] at h5
      exact ⟨fun h => absurd rfl h, fun h => absurd h (inMap_of_missing h5)⟩
    | some l =>
      rw [he] at h5
      exact ⟨fun _ => h5.elim (fun h => ⟨_, h, nofun⟩) fun h => ⟨_, h, nofun⟩, fun _ => nofun⟩
  | UVI => exact key _ h6 nofun
  | LOC =>
    simp only [HasExtension]
    cases he : e.loc with
    | none =>
      rw [he] at h7
      exact ⟨fun h => absurd rfl h, fun h => absurd h (inMap_of_missing h7)⟩
    | some c =>
      rw [he] at h7
      obtain ⟨ld, h7, -⟩ := h7
      exact ⟨fun _ => ⟨_, h7, nofun⟩, fun _ => nofun⟩
  | UVM => exact key _ h8 nofun
  | BIOMETRIC_PERF_BOUNDS => exact key _ h9 nofun

theorem attestedOf_unique {env : Env} {b rest rest' : Bytes} {a a' : AttestedCredentialData}
    (h : AttestedOf env b rest a) (h' : AttestedOf env b rest' a') : rest = rest' := by
  rw [← parseAttested_ok_iff] at h h'
  cases h.symm.trans h'
  rfl

/-- The extension map of well-formed authenticator data denotes their extension outputs. -/
theorem extensionMap_iff {env : Env} {raw : Bytes} {ad : AuthData} (h : AuthDataOf env raw ad)
    {d : Dict} : ExtensionMap env raw d ↔
      ∃ e, ad.extensions = some e ∧ ExtensionsOf d e ∧ ExtensionMap env raw d := by
  refine ⟨fun hd => ?_, fun ⟨_, _, _, hd⟩ => hd⟩
  have hd' := hd
  obtain ⟨flags, count, body, mid, hraw, h1, -, h2, -, h3, h4⟩ := h
  obtain ⟨head, body', mid', flags', a', hraw', h5, h6, h7, h8, h9⟩ := hd'
  have hb : head = ad.rpIdHash ++ [flags] ++ count ∧ body' = body := by
    refine List.append_inj (hraw'.symm.trans hraw) ?_
    simp [h1, h2, h5]
  obtain ⟨rfl, rfl⟩ := hb
  have hf : flags' = flags := by
    simpa [h1] using h6.symm
  subst hf
  have hm : mid' = mid := by
    cases ha : ad.attested with
    | none =>
      rw [ha] at h3
      cases a' with
      | none => exact h7.2.symm.trans h3.2
      | some a' => exact absurd (h3.1.symm.trans h7.1) nofun
    | some a =>
      rw [ha] at h3
      cases a' with
      | none => exact absurd (h7.1.symm.trans h3.1) nofun
      | some a' => exact attestedOf_unique h7.2 h3.2
  subst hm
  cases he : ad.extensions with
  | none =>
    rw [he] at h4
    exact absurd (h4.1.symm.trans h8) nofun
  | some e =>
    rw [he] at h4
    obtain ⟨-, d', h10, h11⟩ := h4
    cases h10.symm.trans h9
    exact ⟨e, rfl, h11, hd⟩

/-- C08: the check for an extension looks at the map at the end of the authenticator data. -/
theorem C08_map {env : Env} {raw : Bytes} {ad : AuthData} (h : AuthDataOf env raw ad) (i : ExtId) :
    (∃ e, ad.extensions = some e ∧ HasExtension e i) ↔ ∃ d, ExtensionMap env raw d ∧ InMap d i := by
  constructor
  · rintro ⟨e, he, hi⟩
    obtain ⟨flags, count, body, mid, hraw, h1, -, h2, -, h3, h4⟩ := h
    rw [he] at h4
    obtain ⟨h4, d, h5, h6⟩ := h4
    refine ⟨d, ⟨ad.rpIdHash ++ [flags] ++ count, body, mid, flags, _, hraw, ?_, ?_, h3, h4, h5⟩,
      (hasExtension_iff h6 i).mp hi⟩
    · simp [h1, h2]
    · simp [h1]
  · rintro ⟨d, hd, hi⟩
    obtain ⟨e, he, h1, -⟩ := (extensionMap_iff h).mp hd
    exact ⟨e, he, (hasExtension_iff h1 i).mpr hi⟩

/-- The map is unique. -/
theorem extensionMap_unique {env : Env} {raw : Bytes} {d d' : Dict} (h : ExtensionMap env raw d)
    (h' : ExtensionMap env raw d') : d = d' := by
  obtain ⟨head, body, mid, flags, a, hraw, h1, h2, h3, h4, h5⟩ := h
  obtain ⟨head', body', mid', flags', a', hraw', h1', h2', h3', h4', h5'⟩ := h'
  obtain ⟨rfl, rfl⟩ := List.append_inj (hraw.symm.trans hraw') (h1.trans h1'.symm)
  cases h2.symm.trans h2'
  have hm : mid = mid' := by
    cases a with
    | none =>
      cases a' with
      | none => exact h3.2.symm.trans h3'.2
      | some a' => exact absurd (h3.1.symm.trans h3'.1) nofun
    | some a =>
      cases a' with
      | none => exact absurd (h3.1.symm.trans h3'.1) nofun
      | some a' => exact attestedOf_unique h3.2 h3'.2
  subst hm
  cases h5.symm.trans h5'
  rfl

/-- C08, registration, on the bytes: the authenticator data end with a map that has a value for each
expected extension. -/
theorem C08_map_registration {σ : Type} {env : Env} {reg : Registrar σ} {a : AttestationArgs}
    {s s' : σ} (h : handleAttestation env reg a s = (.ok (), s')) {i : ExtId} {l : List ExtId}
    (hl : a.expectedExtensions = some (i :: l)) :
    ∃ cdj ob o raw d, a.credential.response = .attestation cdj ob ∧ AttObjOf env ob o raw ∧
      ExtensionMap env raw d ∧ ∀ j ∈ i :: l, InMap d j := by
  obtain ⟨cdj, ob, o, raw, hr, ho, he⟩ := C08_extensions_registration h hl
  have had : AuthDataOf env raw o.authData := by
    obtain ⟨d, rest, sd, -, -, h, -⟩ := ho
    exact h
  obtain ⟨d, hd, -⟩ := (C08_map had i).mp (he i List.mem_cons_self)
  refine ⟨cdj, ob, o, raw, d, hr, ho, hd, fun j hj => ?_⟩
  obtain ⟨d', hd', hj⟩ := (C08_map had j).mp (he j hj)
  exact extensionMap_unique hd hd' ▸ hj

/-- C08, authentication, on the bytes. -/
theorem C08_map_authentication {σ : Type} {env : Env} {reg : Registrar σ} {a : AssertionArgs}
    {s s' : σ} (h : handleAssertion env reg a s = (.ok (), s')) {i : ExtId} {l : List ExtId}
    (hl : a.expectedExtensions = some (i :: l)) :
    ∃ cdj raw sig handle d, a.credential.response = .assertion cdj raw sig handle ∧
      ExtensionMap env raw d ∧ ∀ j ∈ i :: l, InMap d j := by
  obtain ⟨cdj, raw, sig, handle, ad, hr, had, he⟩ := C08_extensions_authentication h hl
  obtain ⟨d, hd, -⟩ := (C08_map had i).mp (he i List.mem_cons_self)
  refine ⟨cdj, raw, sig, handle, d, hr, hd, fun j hj => ?_⟩
  obtain ⟨d', hd', hj⟩ := (C08_map had j).mp (he j hj)
  exact extensionMap_unique hd hd' ▸ hj

/-! ## C15 -/

/-- C15, registration: what stops the handler is reported as it is if it is an error of the package,
and as `InternalError` if it is any other `Exception`. -/
theorem C15_registration_reported {σ : Type} {env : Env} {reg : Registrar σ} {a : AttestationArgs}
    {s : σ} {x : Exc} (h : RegistrationRefused env a x) :
    (∀ y, x = .lib y → handleAttestation env reg a s = (.error (.lib y), s)) ∧
    (IsInstance x .Exception → (∀ y, x ≠ .lib y) →
      handleAttestation env reg a s = (.error (.lib .internal), s)) := by
  constructor
  · rintro y rfl
    exact C60_registration.mpr (.refused _ _ h (.library (by simp [IsInstance, classesOf])))
  · intro he hx
    refine C60_registration.mpr (.refused _ _ h (.internal ?_ he))
    cases x <;> simp_all [IsInstance, classesOf]

/-- C15, authentication: the same. -/
theorem C15_authentication_reported {σ : Type} {env : Env} {reg : Registrar σ} {a : AssertionArgs}
    {s s1 : σ} {cd : CredentialData} {x : Exc} (h1 : ExpectedOk env a.expectedOrigin)
    (h2 : AllowOk a.allowCredentials a.credential.rawId)
    (h3 : reg.getCredentialData a.credential.rawId s = (.ok (some cd), s1))
    (h : AuthenticationRefused env a cd x) :
    (∀ y, x = .lib y → handleAssertion env reg a s = (.error (.lib y), s1)) ∧
    (IsInstance x .Exception → (∀ y, x ≠ .lib y) →
      handleAssertion env reg a s = (.error (.lib .internal), s1)) := by
  constructor
  · rintro y rfl
    exact C60_authentication.mpr
      (.refused cd s1 _ _ h1 h2 h3 h (.library (by simp [IsInstance, classesOf])))
  · intro he hx
    refine C60_authentication.mpr (.refused cd s1 _ _ h1 h2 h3 h (.internal ?_ he))
    cases x <;> simp_all [IsInstance, classesOf]

end WebAuthn.Props

namespace WebAuthn.Demo

open WebAuthn WebAuthn.Spec WebAuthn.Props

/-- The demo registration and login with extensions. -/
example : (∃ cdj ob o raw d, richRegArgs.credential.response = .attestation cdj ob ∧
      AttObjOf env ob o raw ∧ ExtensionMap env raw d ∧ ∀ j ∈ [ExtId.UVI, .APPID], InMap d j) ∧
    ∃ cdj raw sig handle d, richAuthArgs.credential.response = .assertion cdj raw sig handle ∧
      ExtensionMap env raw d ∧ ∀ j ∈ [ExtId.UVI, .APPID], InMap d j :=
  ⟨C08_map_registration (rich_registration_ok [] rfl) rfl,
    C08_map_authentication (rich_authentication_ok []) rfl⟩

/-- The map of the demo login has values for these two extensions and for no others. -/
example (i : ExtId) : (∃ d, ExtensionMap env richAuthRaw d ∧ InMap d i) ↔ i = .UVI ∨ i = .APPID := by
  rw [← C08_map (encodedAuthData_of codec richAuthRaw_enc)]
  simp only [richAuthAd, Option.some.injEq, exists_eq_left']
  cases i <;> simp [HasExtension, exts]

/-- An assertion response handed to the registration: `AttributeError` becomes `InternalError`. -/
example : handleAttestation env registrar
    { regArgs with credential := { regCredential with
        response := .assertion regCdj authRaw signature none } } [] =
    (.error (.lib .internal), []) :=
  (C15_registration_reported (x := .attributeError)
    (.wrongResponse regCdj authRaw signature none expected_ok rfl
      (clientOk_of json (clientData_client rfl) challengeText_ok
        (originAllowed_of expected_ok (by simp [originList, regArgs])) .none))).2
    (by simp [IsInstance, classesOf]) nofun

/-- An attestation response handed to the authentication. -/
example (s : Store) : handleAssertion env registrar
    { authArgs with credential := { authArgs.credential with
        response := .attestation regCdj attObj } } ((credId, stored 5) :: s) =
    (.error (.lib .internal), (credId, stored 5) :: s) :=
  (C15_authentication_reported (x := .attributeError) expected_ok (by
      rintro _ ⟨⟩
      exact ⟨⟨credId⟩, by simp, rfl⟩) (get_stored s)
    (.wrongResponse regCdj attObj rfl (by rintro _ ⟨⟩))).2
    (by simp [IsInstance, classesOf]) nofun

end WebAuthn.Demo
