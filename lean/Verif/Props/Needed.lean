import Verif.Spec.Needed
import Verif.Props.ContractServes

/-!
# The contract, part by part (C99)
-/

namespace WebAuthn.Flask

open WebAuthn WebAuthn.Spec WebAuthn.Props

section
variable {env : Env} {pkg : Package} {req req' : Part → Prop}

/-- C99: all parts together are the contract. -/
theorem C99_whole : Keeps (fun _ => True) env pkg ↔ Contract env pkg := by
  constructor
  · intro h
    refine ⟨?_, fun {σ} => h.registersNot trivial, ?_, fun {σ} => h.logsInNot trivial⟩
    · intro σ reg a s s' hs
      obtain ⟨cdj, ob, o, raw, t, path, cd, h1, h2, h3, h4, h5, h6, h7⟩ := h.registers reg a s s' hs
      exact ⟨cdj, ob, o, raw, t, path, h1 trivial, ⟨cd, h2 trivial, h3 trivial, h4 trivial, h5 trivial⟩, h6 trivial,
        h7 trivial⟩
    · intro σ reg a s s' hs
      obtain ⟨data, s1, user, rp, ad, cdj, raw, sig, handle, cd, h1, h2, h3, h4, h5, h6, h7, h8, h9, h10, h11, h12, h13,
        h14⟩ := h.logsIn reg a s s' hs
      exact ⟨data, s1, user, rp, ad, cdj, raw, sig, handle, h1 trivial, h2 trivial, h3 trivial, h4 trivial,
        ⟨cd, h5 trivial, h6 trivial, h7 trivial, h8 trivial⟩, h9 trivial, h10 trivial, h11 trivial, h12 trivial,
        h13 trivial, h14 trivial⟩
  · intro h
    refine ⟨?_, fun _ {σ} => h.registersNot, ?_, fun _ {σ} => h.logsInNot⟩
    · intro σ reg a s s' hs
      obtain ⟨cdj, ob, o, raw, t, path, h1, ⟨cd, h2, h3, h4, h5⟩, h6, h7⟩ := h.registers reg a s s' hs
      exact ⟨cdj, ob, o, raw, t, path, cd, fun _ => h1, fun _ => h2, fun _ => h3, fun _ => h4, fun _ => h5, fun _ => h6,
        fun _ => h7⟩
    · intro σ reg a s s' hs
      obtain ⟨data, s1, user, rp, ad, cdj, raw, sig, handle, h1, h2, h3, h4, ⟨cd, h5, h6, h7, h8⟩, h9, h10, h11, h12, h13,
        h14⟩ := h.logsIn reg a s s' hs
      exact ⟨data, s1, user, rp, ad, cdj, raw, sig, handle, cd, fun _ => h1, fun _ => h2, fun _ => h3, fun _ => h4,
        fun _ => h5, fun _ => h6, fun _ => h7, fun _ => h8, fun _ => h9, fun _ => h10, fun _ => h11, fun _ => h12,
        fun _ => h13, fun _ => h14⟩

/-- C99: they suffice. -/
theorem C99_suffices : Suffices fun _ => True := fun _ _ codec json law h =>
  C96_guarantees (C99_whole.mp h) codec json law []

/-! ## Packages that keep some parts -/

theorem registersAs_mono (h : ∀ p, req p → req' p) {σ : Type} {reg : Registrar σ} {a : AttestationArgs} {s s' : σ}
    (hr : RegistersAs req' env reg a s s') : RegistersAs req env reg a s s' := by
  obtain ⟨cdj, ob, o, raw, t, path, cd, h1, h2, h3, h4, h5, h6, h7⟩ := hr
  exact ⟨cdj, ob, o, raw, t, path, cd, h1 ∘ h _, h2 ∘ h _, h3 ∘ h _, h4 ∘ h _, h5 ∘ h _, h6 ∘ h _, h7 ∘ h _⟩

theorem logsInAs_mono (h : ∀ p, req p → req' p) {σ : Type} {reg : Registrar σ} {a : AssertionArgs} {s s' : σ}
    (hr : LogsInAs req' env reg a s s') : LogsInAs req env reg a s s' := by
  obtain ⟨data, s1, user, rp, ad, cdj, raw, sig, handle, cd, h1, h2, h3, h4, h5, h6, h7, h8, h9, h10, h11, h12, h13,
    h14⟩ := hr
  exact ⟨data, s1, user, rp, ad, cdj, raw, sig, handle, cd, h1 ∘ h _, h2 ∘ h _, h3 ∘ h _, h4 ∘ h _, h5 ∘ h _, h6 ∘ h _,
    h7 ∘ h _, h8 ∘ h _, h9 ∘ h _, h10 ∘ h _, h11 ∘ h _, h12 ∘ h _, h13 ∘ h _, h14 ∘ h _⟩

theorem keeps_mono (h : ∀ p, req p → req' p) (hk : Keeps req' env pkg) : Keeps req env pkg :=
  ⟨fun reg a s s' hs => registersAs_mono h (hk.registers reg a s s' hs), fun hp {_} => hk.registersNot (h _ hp),
    fun reg a s s' hs => logsInAs_mono h (hk.logsIn reg a s s' hs), fun hp {_} => hk.logsInNot (h _ hp)⟩

/-- C99: fewer parts suffice for less. -/
theorem suffices_mono (h : ∀ p, req p → req' p) (hs : Suffices req) : Suffices req' :=
  fun app pkg codec json law hk => hs app pkg codec json law (keeps_mono h hk)

theorem keeps_code (law : JsonRefusesMark env) : Keeps req env (codePackage env) :=
  keeps_mono (fun _ _ => trivial) (C99_whole.mpr (C96_code law))

theorem keeps_both {pkg' : Package} (h : Keeps req env pkg) (h' : Keeps req env pkg') :
    Keeps req env ⟨pkg.attestation, pkg'.assertion⟩ :=
  ⟨h.registers, h.registersNot, h'.logsIn, h'.logsInNot⟩

/-- Accepts whatever the parts allow. -/
noncomputable def judging (req : Part → Prop) (env : Env) : Package where
  attestation := fun reg a s =>
    open Classical in if h : ∃ s', RegistersAs req env reg a s s' then (.ok (), h.choose) else (.error .typeError, s)
  assertion := fun reg a s =>
    open Classical in if h : ∃ s', LogsInAs req env reg a s s' then (.ok (), h.choose) else (.error .typeError, s)

theorem keeps_judging : Keeps req env (judging req env) where
  registers := by
    intro σ reg a s s' h
    simp only [judging] at h
    split_ifs at h with hc
    · obtain rfl := (Prod.mk.inj h).2
      exact hc.choose_spec
    · cases h
  registersNot := by
    intro _ σ reg a s s' e h
    simp only [judging] at h
    split_ifs at h with hc
    · cases h
    · exact Or.inl (Prod.mk.inj h).2.symm
  logsIn := by
    intro σ reg a s s' h
    simp only [judging] at h
    split_ifs at h with hc
    · obtain rfl := (Prod.mk.inj h).2
      exact hc.choose_spec
    · cases h
  logsInNot := by
    intro _ σ reg a s s' e h
    simp only [judging] at h
    split_ifs at h with hc
    · cases h
    · exact Or.inl (Prod.mk.inj h).2.symm

theorem judging_registers {σ : Type} {reg : Registrar σ} {a : AttestationArgs} {s s' : σ}
    (h : RegistersAs req env reg a s s') : ∃ s'', (judging req env).attestation reg a s = (.ok (), s'') :=
  ⟨_, dif_pos ⟨s', h⟩⟩

theorem judging_logsIn {σ : Type} {reg : Registrar σ} {a : AssertionArgs} {s s' : σ}
    (h : LogsInAs req env reg a s s') : ∃ s'', (judging req env).assertion reg a s = (.ok (), s'') :=
  ⟨_, dif_pos ⟨s', h⟩⟩

/-- The registrar forgets counters. -/
def forgetful {σ : Type} (reg : Registrar σ) : Registrar σ :=
  { reg with getCredentialData := fun id s =>
      ((reg.getCredentialData id s).1.map (Option.map fun cd => { cd with signatureCount := none }),
        (reg.getCredentialData id s).2) }

/-- The registrar is told of counters of zero only. -/
def zeroing {σ : Type} (reg : Registrar σ) : Registrar σ :=
  { reg with registerAssertion := fun r => reg.registerAssertion { r with authData := { r.authData with signCount := 0 } } }

/-- The registrar is told of no login, … -/
def untold {σ : Type} (reg : Registrar σ) : Registrar σ := { reg with registerAssertion := fun _ s => (.ok none, s) }

/-- … or of no registration. -/
def unasked {σ : Type} (reg : Registrar σ) : Registrar σ := { reg with registerAttestation := fun _ s => (.ok none, s) }

/-- Copies are ignored. -/
def cloning (env : Env) : Package :=
  ⟨handleAttestation env, fun reg a => handleAssertion env reg { a with ignoreCloneError := true }⟩

def forgetting (env : Env) : Package := ⟨handleAttestation env, fun reg => handleAssertion env (forgetful reg)⟩
def numbing (env : Env) : Package := ⟨handleAttestation env, fun reg => handleAssertion env (zeroing reg)⟩
def skipping (env : Env) : Package := ⟨handleAttestation env, fun reg => handleAssertion env (untold reg)⟩
def ignoring (env : Env) : Package := ⟨fun reg => handleAttestation env (unasked reg), handleAssertion env⟩

/-- A failed login sets the counter back. -/
def resetting (env : Env) : Package :=
  ⟨handleAttestation env, fun reg a s =>
    match handleAssertion env reg a s with
    | (.ok (), s') => (.ok (), s')
    | (.error e, s') => (.error e, (reg.registerAssertion ⟨a.credential, ⟨[], 0, 0, none, none⟩,
        { name := "", id := [], displayName := "" }, { name := "", id := "" }⟩ s').2)⟩

/-- All registrations fail, after the registrar was told. -/
def denying (env : Env) : Package :=
  ⟨fun reg a s => (.error (.lib .registration), (handleAttestation env reg a s).2), handleAssertion env⟩

/-- The registrar is told that the credential was `c`. -/
def naming {σ : Type} (c : Credential) (reg : Registrar σ) : Registrar σ :=
  { reg with registerAttestation := fun r => reg.registerAttestation { r with credential := c } }

/-- The response has another attestation object. -/
def swapped (a : AttestationArgs) (cdj ob : Bytes) : AttestationArgs :=
  { a with credential := { a.credential with response := .attestation cdj ob } }

/-- Registers what is in another attestation object. -/
def swapping (env : Env) (ob : Bytes) : Package :=
  ⟨fun reg a s => match a.credential.response with
    | .attestation cdj _ => handleAttestation env (naming a.credential reg) (swapped a cdj ob) s
    | .assertion .. => handleAttestation env reg a s, handleAssertion env⟩

variable (law : JsonRefusesMark env)
include law

theorem keeps_cloning : Keeps (· ≠ .counter) env (cloning env) where
  registers := (keeps_code law).registers
  registersNot := fun _ {_} => (C96_code law).registersNot
  logsIn := by
    intro σ reg a s s' h
    obtain ⟨data, s1, user, rp, ad, cdj, raw, sig, handle, cd, h1, h2, h3, h4, h5, h6, h7, h8, h9, h10, h11, h12, -,
      h14⟩ := (keeps_code (req := (· ≠ .counter)) law).logsIn _ _ _ _ h
    exact ⟨data, s1, user, rp, ad, cdj, raw, sig, handle, cd, h1, h2, h3, h4, h5, h6, h7, h8, h9, h10, h11, h12,
      fun h => absurd rfl h, h14⟩
  logsInNot := fun _ {_} reg a s s' e h =>
    (C96_code law).logsInNot reg { a with ignoreCloneError := true } s s' e h

theorem keeps_forgetting : Keeps (· ≠ .known) env (forgetting env) where
  registers := (keeps_code law).registers
  registersNot := fun _ {_} => (C96_code law).registersNot
  logsIn := by
    intro σ reg a s s' h
    obtain ⟨data, s1, user, rp, ad, cdj, raw, sig, handle, cd, -, hrest⟩ :=
      (keeps_code (req := (· ≠ .known)) law).logsIn _ _ _ _ h
    exact ⟨data, s1, user, rp, ad, cdj, raw, sig, handle, cd, fun h => absurd rfl h, hrest⟩
  logsInNot := fun _ {_} reg a s s' e h => (C96_code law).logsInNot (forgetful reg) a s s' e h

theorem keeps_numbing : Keeps (· ≠ .authData) env (numbing env) where
  registers := (keeps_code law).registers
  registersNot := fun _ {_} => (C96_code law).registersNot
  logsIn := by
    intro σ reg a s s' h
    obtain ⟨data, s1, user, rp, ad, cdj, raw, sig, handle, cd, h1, h2, h3, h4, h5, h6, h7, h8, -, h10, h11, h12, h13,
      h14⟩ := (keeps_code (req := (· ≠ .authData)) law).logsIn _ _ _ _ h
    exact ⟨data, s1, user, rp, { ad with signCount := 0 }, cdj, raw, sig, handle, cd, h1, h2, h3, h4, h5, h6, h7, h8,
      fun h => absurd rfl h, h10, h11, h12, h13, h14⟩
  logsInNot := by
    intro _ σ reg a s s' e h
    rcases (C96_code law).logsInNot _ _ _ _ _ h with h | h | ⟨record, w, h1, h2⟩
    · exact Or.inl h
    · exact Or.inr (Or.inl h)
    · exact Or.inr (Or.inr ⟨_, w, h1, h2⟩)

theorem keeps_skipping : Keeps (· ≠ .updated) env (skipping env) where
  registers := (keeps_code law).registers
  registersNot := fun _ {_} => (C96_code law).registersNot
  logsIn := by
    intro σ reg a s s' h
    obtain ⟨data, s1, user, rp, ad, cdj, raw, sig, handle, cd, h1, h2, h3, h4, h5, h6, h7, h8, h9, h10, h11, h12, h13,
      -⟩ := (keeps_code (req := (· ≠ .updated)) law).logsIn _ _ _ _ h
    exact ⟨data, s1, user, rp, ad, cdj, raw, sig, handle, cd, h1, h2, h3, h4, h5, h6, h7, h8, h9, h10, h11, h12, h13,
      fun h => absurd rfl h⟩
  logsInNot := by
    intro _ σ reg a s s' e h
    rcases (C96_code law).logsInNot _ _ _ _ _ h with h | h | ⟨record, w, h1, h2⟩
    · exact Or.inl h
    · exact Or.inr (Or.inl h)
    · exact absurd (Prod.mk.inj h1).1.symm h2

theorem keeps_resetting : Keeps (· ≠ .notUpdated) env (resetting env) where
  registers := (keeps_code law).registers
  registersNot := fun _ {_} => (C96_code law).registersNot
  logsIn := by
    intro σ reg a s s' h
    refine (keeps_code law).logsIn reg a s s' ?_
    show handleAssertion env reg a s = _
    simp only [resetting] at h
    generalize handleAssertion env reg a s = x at h ⊢
    obtain ⟨_ | ⟨⟩, s1⟩ := x
    · cases h
    · exact h
  logsInNot := fun hp => absurd rfl hp

theorem keeps_ignoring : Keeps (· ≠ .stored) env (ignoring env) where
  registers := by
    intro σ reg a s s' h
    obtain ⟨cdj, ob, o, raw, t, path, cd, h1, h2, h3, h4, h5, h6, -⟩ :=
      (keeps_code (req := (· ≠ .stored)) law).registers _ _ _ _ h
    exact ⟨cdj, ob, o, raw, t, path, cd, h1, h2, h3, h4, h5, h6, fun h => absurd rfl h⟩
  registersNot := by
    intro _ σ reg a s s' e h
    rcases (C96_code law).registersNot _ _ _ _ _ h with h | ⟨record, w, h1, h2⟩
    · exact Or.inl h
    · exact absurd (Prod.mk.inj h1).1.symm h2
  logsIn := (keeps_code law).logsIn
  logsInNot := fun _ {_} => (C96_code law).logsInNot

theorem keeps_denying : Keeps (· ≠ .notStored) env (denying env) where
  registers := by
    intro σ reg a s s' h
    cases h
  registersNot := fun hp => absurd rfl hp
  logsIn := (keeps_code law).logsIn
  logsInNot := fun _ {_} => (C96_code law).logsInNot

theorem keeps_swapping {ob : Bytes} : Keeps (· ≠ .object) env (swapping env ob) where
  registers := by
    intro σ reg a s s' h
    cases hr : a.credential.response with
    | attestation cdj ob' =>
      simp only [swapping, hr] at h
      obtain ⟨cdj', ob', o, raw, t, path, cd, h1, h2, h3, h4, h5, -, h7⟩ :=
        (keeps_code (req := (· ≠ .object)) law).registers (naming a.credential reg) (swapped a cdj ob) s s' h
      obtain ⟨rfl, -⟩ := Response.attestation.inj (h1 (by decide))
      exact ⟨cdj, _, o, raw, t, path, cd, fun _ => hr, h2, h3, h4, h5, fun h => absurd rfl h, h7⟩
    | assertion cdj raw sig handle =>
      simp only [swapping, hr] at h
      exact (keeps_code law).registers _ _ _ _ h
  registersNot := by
    intro _ σ reg a s s' e h
    cases hr : a.credential.response with
    | attestation cdj ob' =>
      simp only [swapping, hr] at h
      rcases (C96_code law).registersNot (naming a.credential reg) (swapped a cdj ob) s s' e h with h | ⟨record, w, h1, h2⟩
      · exact Or.inl h
      · exact Or.inr ⟨_, w, h1, h2⟩
    | assertion cdj raw sig handle =>
      simp only [swapping, hr] at h
      exact (C96_code law).registersNot _ _ _ _ _ h
  logsIn := (keeps_code law).logsIn
  logsInNot := fun _ {_} => (C96_code law).logsInNot

end

end WebAuthn.Flask
