import Verif.Spec.Binding
import Verif.Model.Binding
import Verif.Lemmas.Backend
import Verif.Lemmas.Wire

/-!
# Token bindings (C102)
-/

namespace WebAuthn.Props

open Spec

theorem hasClientData_iff {r : Response} {cdj : Bytes} :
    HasClientData r cdj ↔ r.clientDataJSON = cdj := by
  constructor
  · rintro (_ | _) <;> rfl
  · rintro rfl
    cases r with
    | attestation a b => exact .attestation a b
    | assertion a b c d => exact .assertion a b c d

/-- The chosen argument is right exactly for what the client may report. -/
theorem chosen_iff {env : Env} {used : Option String} {r : Response} {cd : ClientData}
    (h : ClientDataOf env r.clientDataJSON cd) :
    TokenBindingOk (chosenBinding env used r) cd.tokenBinding ↔ Reports used cd.tokenBinding := by
  rw [← parseClientData_ok_iff] at h
  unfold chosenBinding
  cases used with
  | some id =>
    simp only
    generalize cd.tokenBinding = t
    constructor
    · rintro (_ | _ | _)
      exact .present id
    · rintro (_ | _ | _ | _)
      exact .withId _ _
  | none =>
    simp only [h]
    split
    · next e => rw [e]; exact ⟨fun _ => .supported, fun _ => .noId _⟩
    · next id e => rw [e]; exact ⟨fun _ => .supportedWith _, fun _ => .withId _ _⟩
    · next n1 n2 =>
      constructor
      · generalize cd.tokenBinding = t
        rintro (_ | _ | _)
        exact .unknown
      · generalize cd.tokenBinding = t at n1 n2
        rintro (_ | _ | _ | _)
        · exact .none
        · exact absurd rfl n1
        · exact absurd rfl (n2 _)

theorem clientDataOf_unique {env : Env} {b : Bytes} {c d : ClientData} (h : ClientDataOf env b c)
    (h' : ClientDataOf env b d) : c = d := by
  rw [← parseClientData_ok_iff] at h h'
  exact Except.ok.inj (h.symm.trans h')

theorem clientOk_chosen {env : Env} {used : Option String} {r : Response} {cdj : Bytes} {type : String}
    {challenge : Bytes} {expected : ExpectedOrigin} (hr : r.clientDataJSON = cdj) :
    ClientOk env cdj type challenge expected (chosenBinding env used r) ↔
      (∃ tb, ClientOk env cdj type challenge expected tb) ∧ RightlyBound env used cdj := by
  subst hr
  constructor
  · rintro ⟨cd, h1, h2, h3, h4, h5⟩
    exact ⟨⟨_, cd, h1, h2, h3, h4, h5⟩, cd, h1, (chosen_iff h1).mp h5⟩
  · rintro ⟨⟨_, cd, h1, h2, h3, h4, -⟩, cd', h1', h5⟩
    cases clientDataOf_unique h1 h1'
    exact ⟨cd, h1, h2, h3, h4, (chosen_iff h1).mpr h5⟩

/-- **C102** A caller that looks into the client data first can choose the argument rightly. -/
theorem C102_chosen {σ : Type} (env : Env) (reg : Registrar σ) (s s' : σ) :
    ChoosesRight env (chosenBinding env) (fun a => handleAttestation env reg a s = (.ok (), s'))
      (fun a => handleAssertion env reg a s = (.ok (), s')) := by
  constructor
  · intro used a
    simp only [attestation_accepts, AttestationOk, hasClientData_iff, exists_eq_left']
    constructor
    · rintro ⟨h1, o, raw, ⟨cdj, ob, h2, h3, h4⟩, h5⟩
      have hr : a.credential.response.clientDataJSON = cdj := by rw [h2]; rfl
      obtain ⟨⟨tb, h6⟩, h7⟩ := (clientOk_chosen hr).mp h3
      exact ⟨⟨tb, h1, o, raw, ⟨cdj, ob, h2, h6, h4⟩, h5⟩, hr ▸ h7⟩
    · rintro ⟨⟨tb, h1, o, raw, ⟨cdj, ob, h2, h6, h4⟩, h5⟩, h7⟩
      have hr : a.credential.response.clientDataJSON = cdj := by rw [h2]; rfl
      exact ⟨h1, o, raw, ⟨cdj, ob, h2, (clientOk_chosen hr).mpr ⟨⟨tb, h6⟩, hr ▸ h7⟩, h4⟩, h5⟩
  · intro used a
    simp only [assertion_accepts, AssertionOk, hasClientData_iff, exists_eq_left']
    constructor
    · rintro ⟨h1, h2, cd, s1, user, rp, ad, h3, ⟨cdj, raw, sig, hd, h4, h5, h6, h7, h8⟩, h9⟩
      have hr : a.credential.response.clientDataJSON = cdj := by rw [h4]; rfl
      obtain ⟨⟨tb, h10⟩, h11⟩ := (clientOk_chosen hr).mp h7
      exact ⟨⟨tb, h1, h2, cd, s1, user, rp, ad, h3, ⟨cdj, raw, sig, hd, h4, h5, h6, h10, h8⟩, h9⟩,
        hr ▸ h11⟩
    · rintro ⟨⟨tb, h1, h2, cd, s1, user, rp, ad, h3, ⟨cdj, raw, sig, hd, h4, h5, h6, h7, h8⟩, h9⟩, h10⟩
      have hr : a.credential.response.clientDataJSON = cdj := by rw [h4]; rfl
      exact ⟨h1, h2, cd, s1, user, rp, ad, h3, ⟨cdj, raw, sig, hd, h4, h5, h6,
        (clientOk_chosen hr).mpr ⟨⟨tb, h7⟩, hr ▸ h10⟩, h8⟩, h9⟩

/-! ## No argument does for all clients -/

theorem tokenBindingOk_unique {tb : Option TokenBinding} {x y : Option ClientTokenBinding}
    (h : TokenBindingOk tb x) (h' : TokenBindingOk tb y) : x = y := by
  cases h <;> cases h' <;> rfl

theorem registration_binding {σ : Type} {env : Env} {reg : Registrar σ} {a : AttestationArgs} {s s' : σ}
    {cdj : Bytes} {c : ClientData} (h : handleAttestation env reg a s = (.ok (), s'))
    (hcd : HasClientData a.credential.response cdj) (hc : ClientDataOf env cdj c) :
    TokenBindingOk a.tokenBinding c.tokenBinding := by
  obtain ⟨-, -, -, ⟨cdj', ob, h4, ⟨cd, h5, -, -, -, h6⟩, -⟩, -⟩ := attestation_accepts.mp h
  rw [h4] at hcd
  cases hcd
  cases clientDataOf_unique h5 hc
  exact h6

theorem authentication_binding {σ : Type} {env : Env} {reg : Registrar σ} {a : AssertionArgs} {s s' : σ}
    {cdj : Bytes} {c : ClientData} (h : handleAssertion env reg a s = (.ok (), s'))
    (hcd : HasClientData a.credential.response cdj) (hc : ClientDataOf env cdj c) :
    TokenBindingOk a.tokenBinding c.tokenBinding := by
  obtain ⟨-, -, -, -, -, -, -, -, ⟨cdj', raw, sig, hd, h4, -, -, ⟨cd, h5, -, -, -, h6⟩, -⟩, -⟩ :=
    assertion_accepts.mp h
  rw [h4] at hcd
  cases hcd
  cases clientDataOf_unique h5 hc
  exact h6

/-- **C102** The argument fixes all that the client may report: two registrations accepted with the
same argument, of whatever Relying Parties, have clients that report the same. -/
theorem C102_one_report_registration {σ τ : Type} {env : Env} {reg : Registrar σ} {reg' : Registrar τ}
    {a b : AttestationArgs} {s s' : σ} {t t' : τ} {cdj cdj' : Bytes} {c d : ClientData}
    (ha : handleAttestation env reg a s = (.ok (), s')) (hb : handleAttestation env reg' b t = (.ok (), t'))
    (same : a.tokenBinding = b.tokenBinding) (hc : HasClientData a.credential.response cdj)
    (hd : HasClientData b.credential.response cdj') (hc' : ClientDataOf env cdj c)
    (hd' : ClientDataOf env cdj' d) : c.tokenBinding = d.tokenBinding :=
  tokenBindingOk_unique (same ▸ registration_binding ha hc hc') (registration_binding hb hd hd')

/-- **C102** The same for two authentications. -/
theorem C102_one_report_authentication {σ τ : Type} {env : Env} {reg : Registrar σ} {reg' : Registrar τ}
    {a b : AssertionArgs} {s s' : σ} {t t' : τ} {cdj cdj' : Bytes} {c d : ClientData}
    (ha : handleAssertion env reg a s = (.ok (), s')) (hb : handleAssertion env reg' b t = (.ok (), t'))
    (same : a.tokenBinding = b.tokenBinding) (hc : HasClientData a.credential.response cdj)
    (hd : HasClientData b.credential.response cdj') (hc' : ClientDataOf env cdj c)
    (hd' : ClientDataOf env cdj' d) : c.tokenBinding = d.tokenBinding :=
  tokenBindingOk_unique (same ▸ authentication_binding ha hc hc') (authentication_binding hb hd hd')

end WebAuthn.Props
