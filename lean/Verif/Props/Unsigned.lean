import Verif.Props.Strictness
import Verif.Props.Flask
import Verif.Spec.Unsigned

/-!
# Unsigned parts change nothing but acceptance (C88)
-/

namespace WebAuthn.Props

open WebAuthn WebAuthn.Spec

section
variable {σ : Type} {env : Env} {reg : Registrar σ}

theorem map_of_bind {α β γ : Type} (x : Py α) (f : α → Py β) (g : β → γ) :
    (x >>= f).map g = x >>= fun y => (f y).map g := by
  cases x <;> rfl

theorem map_of_pure {α β : Type} (x : α) (g : α → β) : (pure x : Py α).map g = pure (g x) := rfl

theorem userOk_unique {u0 : UserEntity} {arg : Option UserEntity} {h h' : Option Bytes} {u u' : UserEntity}
    (hu : UserOk u0 arg h u) (hu' : UserOk u0 arg h' u') : u = u' := by
  cases hu <;> cases hu' <;> rfl

theorem rpOk_one {r a : Option RpEntity} {p q : RpEntity} (h : RpOk r a p) (h' : RpOk r a q) : p = q := by
  cases h <;> cases h' <;> rfl

/-- C88: of two accepted logins that differ in unsigned parts only, the registrar gets the same
authenticator data, user and Relying Party to record, in the same state. -/
theorem C88_login_recorded {a : AssertionArgs} {c : Credential} {s s' s'' : σ}
    (hc : SameSigned a.credential c) (h : handleAssertion env reg a s = (.ok (), s'))
    (h' : handleAssertion env reg { a with credential := c } s = (.ok (), s'')) :
    ∃ s1 ad user rp, reg.registerAssertion ⟨a.credential, ad, user, rp⟩ s1 = (.ok none, s') ∧
      reg.registerAssertion ⟨c, ad, user, rp⟩ s1 = (.ok none, s'') := by
  obtain ⟨hid, cdj, raw, sig, sig', hd, hd', r1, r2⟩ := hc
  rw [C17_authentication_accepts_exactly] at h h'
  obtain ⟨-, -, cd, s1, user, rp, ad, h3, ⟨_, _, _, _, g1, g2, g3, -, ⟨g5, -⟩, -⟩, h5⟩ := h
  obtain ⟨-, -, cd', s1', user', rp', ad', h3', ⟨_, _, _, _, g1', g2', g3', -, ⟨g5', -⟩, -⟩, h5'⟩ := h'
  rw [r1] at g1
  cases g1
  replace g1' : c.response = _ := g1'
  rw [r2] at g1'
  cases g1'
  rw [hid] at h3
  replace h3' : reg.getCredentialData c.rawId s = _ := h3'
  rw [h3] at h3'
  obtain ⟨rfl, rfl⟩ : cd = cd' ∧ s1 = s1' := by simpa using h3'
  cases userOk_unique g2 g2'
  cases rpOk_one g3 g3'
  cases authDataOf_unique g5 g5'
  exact ⟨s1, ad, user, rp, h5, h5'⟩

/-- C88: the effect of an accepted login does not depend on unsigned parts. -/
theorem C88_login_effect (hreg : IgnoresUnsigned reg) {a : AssertionArgs} {c : Credential} {s s' s'' : σ}
    (hc : SameSigned a.credential c) (h : handleAssertion env reg a s = (.ok (), s'))
    (h' : handleAssertion env reg { a with credential := c } s = (.ok (), s'')) : s' = s'' := by
  obtain ⟨s1, ad, user, rp, h1, h2⟩ := C88_login_recorded hc h h'
  rw [hreg _ _ ad user rp hc, h2] at h1
  cases h1
  rfl

/-- C88: if a login is accepted, one that differs in unsigned parts is accepted just if its signature
is by the same key, and its user handle, if any, is that of the user (and there, if no user is
given). -/
theorem C88_login_exact (hreg : IgnoresUnsigned reg) {a : AssertionArgs} {c : Credential} {s s' : σ}
    (hc : SameSigned a.credential c) (h : handleAssertion env reg a s = (.ok (), s')) :
    handleAssertion env reg { a with credential := c } s = (.ok (), s') ↔
      ∃ cd s1 cdj raw sig handle, reg.getCredentialData a.credential.rawId s = (.ok (some cd), s1) ∧
        c.response = .assertion cdj raw sig handle ∧
        SignedBy env cd.publicKey sig (raw ++ env.sha256 cdj) ∧
        (∀ b, handle = some b → b = cd.user.id) ∧ (a.user = none → handle ≠ none) := by
  constructor
  · intro h'
    obtain ⟨-, -, cd, s1, user, rp, ad, h3, ⟨cdj, raw, sig, handle, g1, g2, -, -, -, g6, -⟩, -⟩ :=
      C17_authentication_accepts_exactly.mp h'
    replace g2 : UserOk cd.user a.user handle user := g2
    refine ⟨cd, s1, cdj, raw, sig, handle, by rw [hc.1]; exact h3, g1, g6, ?_, ?_⟩
    · generalize a.user = au at g2
      cases g2 with
      | given u _ _ h1 => exact h1
      | fromHandle => rintro b ⟨⟩; rfl
    · intro hn
      rw [hn] at g2
      cases g2
      nofun
  · rintro ⟨cd, s1, cdj, raw, sig, handle, f1, f2, f3, f4, f5⟩
    have hsame := hc
    obtain ⟨hid, cdj', raw', sig0, sig', hd, hd', r1, r2⟩ := hc
    rw [f2] at r2
    cases r2
    rw [C17_authentication_accepts_exactly] at h ⊢
    obtain ⟨k1, k2, cd', s1', user, rp, ad, h3, ⟨_, _, _, _, g1, g2, g3, g4, g5, g6, g7⟩, h5⟩ := h
    rw [r1] at g1
    cases g1
    rw [f1] at h3
    obtain ⟨rfl, rfl⟩ : cd = cd' ∧ s1 = s1' := by simpa using h3
    refine ⟨k1, hid ▸ k2, cd, s1, user, rp, ad, hid ▸ f1, ⟨cdj, raw, sig, handle, f2, ?_, g3, g4, g5, f3,
      g7⟩, ?_⟩
    · show UserOk cd.user a.user handle user
      generalize a.user = au at g2 f5
      cases g2 with
      | given u _ h1 => exact .given _ _ h1 f4
      | fromHandle =>
        cases handle with
        | none => exact absurd rfl (f5 rfl)
        | some b => exact f4 b rfl ▸ .fromHandle
    · show reg.registerAssertion ⟨c, ad, user, rp⟩ s1 = _
      rw [← hreg _ _ ad user rp hsame]
      exact h5

/-- C88: the text of the id and the type do not matter, whatever the outcome of the login. -/
theorem C88_login_names (hreg : IgnoresNames reg) {a : AssertionArgs} {c : Credential} {s : σ}
    (hc : SameButNames a.credential c) :
    handleAssertion env reg { a with credential := c } s = handleAssertion env reg a s := by
  obtain ⟨hid, hr⟩ := hc
  have pre : assertionPre env { a with credential := c } = assertionPre env a := by
    unfold assertionPre
    simp only [hid]
  have checks : ∀ l cd, assertionChecks env { a with credential := c } l cd =
      (assertionChecks env a l cd).map fun r => { r with credential := c } := by
    intro l cd
    unfold assertionChecks
    simp only [hr, map_of_bind, map_of_pure]
  unfold handleAssertion
  simp only [pre, hid]
  cases hp : assertionPre env a with
  | error e => rfl
  | ok l =>
    cases checkRead (reg.getCredentialData c.rawId s).1 with
    | error e => rfl
    | ok cd =>
      simp only [checks]
      cases hk : assertionChecks env a l cd with
      | error e => rfl
      | ok r =>
        have hrc := ((assertionChecks_ok_iff (assertionPre_ok_iff.mp hp).1).mp hk).1
        have := hreg.1 _ _ r.authData r.user r.rp ⟨hid, hr⟩
        rw [← hrc] at this
        exact congrArg (fun w => (finalise (checkWrite (w (reg.getCredentialData c.rawId s).2).1),
          (w (reg.getCredentialData c.rawId s).2).2)) this.symm

/-- C88, registrations. -/
theorem C88_registration_names (hreg : IgnoresNames reg) {a : AttestationArgs} {c : Credential} {s : σ}
    (hc : SameButNames a.credential c) :
    handleAttestation env reg { a with credential := c } s = handleAttestation env reg a s := by
  obtain ⟨hid, hr⟩ := hc
  have checks : attestationChecks env { a with credential := c } =
      (attestationChecks env a).map fun r => { r with credential := c } := by
    unfold attestationChecks
    simp only [hr, map_of_bind, map_of_pure]
  unfold handleAttestation
  rw [checks]
  cases hk : attestationChecks env a with
  | error e => rfl
  | ok r =>
    obtain ⟨-, -, -, hrc, -⟩ := attestationChecks_ok_iff.mp hk
    have := hreg.2 _ _ r.att r.attType r.user r.rp r.trustedPath ⟨hid, hr⟩
    rw [← hrc] at this
    exact congrArg (fun w => (finalise (checkWrite (w s).1), (w s).2)) this.symm

end

end WebAuthn.Props

namespace WebAuthn.Flask

open WebAuthn WebAuthn.Spec WebAuthn.Props

variable {app : App}

theorem ignoresUnsigned (env : Env) : IgnoresUnsigned (registrar env) := by
  intro c c' ad user rp h
  funext db
  show registerAssertion _ db = registerAssertion _ db
  unfold registerAssertion
  simp only [h.1]

theorem ignoresNames (env : Env) : IgnoresNames (registrar env) := by
  refine ⟨fun c c' ad user rp h => ?_, fun c c' o t user rp path h => ?_⟩
  · funext db
    show registerAssertion _ db = registerAssertion _ db
    unfold registerAssertion
    simp only [h.1]
  · funext db
    show registerAttestation env _ db = registerAttestation env _ db
    unfold registerAttestation
    simp only [h.1]

/-- C88, example application: logins that succeed after the same history, whatever challenge and user
they name, change the tables alike if they differ in unsigned parts only. -/
theorem C88_app_effect {evs : List Event} {f f' : Form} {t t' : Int} {n n' : Nat} {c c' : Credential}
    {name name' : String} (hc : SameSigned c c') (hf : Submits app f n c name) (hf' : Submits app f' n' c' name')
    (h : reply app evs (.authenticationResponse f t) = success)
    (h' : reply app evs (.authenticationResponse f' t') = success) :
    run app (evs ++ [.authenticationResponse f t]) = run app (evs ++ [.authenticationResponse f' t']) := by
  obtain ⟨_, _, _, _, _, _, _, _, _, ad, g1, -, -, -, -, -, -, -, -, ⟨_, _, _, _, g2, -, -, -, ⟨g3, -⟩, -⟩, g4⟩ :=
    authentication_success h
  obtain ⟨_, _, _, _, _, _, _, _, _, ad', g1', -, -, -, -, -, -, -, -, ⟨_, _, _, _, g2', -, -, -, ⟨g3', -⟩, -⟩,
    g4'⟩ := authentication_success h'
  obtain ⟨rfl, rfl, rfl⟩ := submits_unique hf g1
  obtain ⟨rfl, rfl, rfl⟩ := submits_unique hf' g1'
  obtain ⟨hid, cdj, raw, sig, sig', hd, hd', r1, r2⟩ := hc
  replace g2 : c.response = _ := g2
  replace g2' : c'.response = _ := g2'
  rw [r1] at g2
  cases g2
  rw [r2] at g2'
  cases g2'
  cases authDataOf_unique g3 g3'
  rw [g4, g4', hid]

/-- C88, example application: the text of the id and the type change neither the reply nor the
tables. -/
theorem C88_app_names {db : Db} {f f' : Form} {t : Int} {n : Nat} {c c' : Credential} {name : String}
    (hc : SameButNames c c') (hf : Submits app f n c name) (hf' : Submits app f' n c' name) :
    authenticationResponse app f t db = authenticationResponse app f' t db ∧
    registrationResponse app f t db = registrationResponse app f' t db := by
  obtain ⟨hid, hr⟩ := hc
  have read : ∀ att, (∃ r, readResponse app att f t db = .error r ∧ readResponse app att f' t db = .error r) ∨
      ∃ ch u, readResponse app att f t db = .ok (c, ch, u) ∧ readResponse app att f' t db = .ok (c', ch, u) := by
    intro att
    obtain ⟨cid, text, d, h1, h2, h3, h4, h5, h6⟩ := hf
    obtain ⟨cid', text', d', h1', h2', h3', h4', h5', h6'⟩ := hf'
    have hp := parseForm_ok_iff.mpr ⟨h1, h6, text, d, h3, h4, h5⟩
    have hp' := parseForm_ok_iff.mpr ⟨h1', h6', text', d', h3', h4', h5'⟩
    unfold readResponse
    simp only [hp, hp', h2, h2', hr]
    split
    · exact Or.inl ⟨_, rfl, rfl⟩
    split
    · exact Or.inl ⟨_, rfl, rfl⟩
    split
    · exact Or.inl ⟨_, rfl, rfl⟩
    split
    · exact Or.inl ⟨_, rfl, rfl⟩
    · exact Or.inr ⟨_, _, rfl, rfl⟩
  constructor
  · unfold authenticationResponse
    rcases read false with ⟨r, h1, h2⟩ | ⟨ch, u, h1, h2⟩
    · rw [h1, h2]
    · rw [h1, h2]
      have : handleAssertion app.env (registrar app.env) (assertionArgs c' ch u) db = _ :=
        C88_login_names (ignoresNames app.env) (a := assertionArgs c ch u) (c := c') ⟨hid, hr⟩
      simp only [this]
  · unfold registrationResponse
    rcases read true with ⟨r, h1, h2⟩ | ⟨ch, u, h1, h2⟩
    · rw [h1, h2]
    · rw [h1, h2]
      have : handleAttestation app.env (registrar app.env) (attestationArgs c' ch u) db = _ :=
        C88_registration_names (ignoresNames app.env) (a := attestationArgs c ch u) (c := c') ⟨hid, hr⟩
      simp only [this]

end WebAuthn.Flask
