import Verif.Spec.OneRoute
import Verif.Props.FlaskOutcome

/-!
# One route for all (C105)
-/

namespace WebAuthn.Flask

open WebAuthn WebAuthn.Spec WebAuthn.Props

variable {app : App}

theorem parseForm_readable {f : Form} {cid name : String} {c : Credential} :
    parseForm app.env f = .ok (cid, c, name) ↔ Readable app f cid c name := by
  rw [parseForm_ok_iff]
  constructor
  · rintro ⟨h1, h2, text, d, h3, h4, h5⟩
    exact ⟨text, d, h1, h3, h4, h5, h2⟩
  · rintro ⟨text, d, h1, h3, h4, h5, h2⟩
    exact ⟨h1, h2, text, d, h3, h4, h5⟩

theorem readable_credential {f : Form} {cid name : String} {c : Credential} (h : Readable app f cid c name) :
    ∃ text, f.credential = some text := by
  obtain ⟨text, _, _, h, -⟩ := h
  exact ⟨text, h⟩

theorem parseForm_unreadable {f : Form} (h : ∀ cid c name, ¬ Readable app f cid c name) :
    ∃ e, parseForm app.env f = .error e := by
  cases hp : parseForm app.env f with
  | error e => exact ⟨e, rfl⟩
  | ok x => exact absurd (parseForm_readable.mp hp) (h _ _ _)

/-- The request that is meant is served as the four routes serve it. -/
theorem oneStep_meant {a : Ask} {e : Event} (h : Meant app a e) (db : Db) :
    oneStep app a db = step app e db := by
  cases h with
  | registration h1 h2 => simp only [oneStep, h1, h2, if_true, step]
  | login h1 h2 => simp only [oneStep, h1, h2, if_false, step]
  | attestation cid c name h1 h2 =>
    obtain ⟨text, h3⟩ := readable_credential h1
    obtain ⟨_, _, h2⟩ := h2
    simp only [oneStep, h3, parseForm_readable.mpr h1, h2, isAttestation, if_true, step]
  | assertion cid c name h1 h2 =>
    obtain ⟨text, h3⟩ := readable_credential h1
    obtain ⟨_, _, _, _, h2⟩ := h2
    simp only [oneStep, h3, parseForm_readable.mpr h1, h2, isAttestation, Bool.false_eq_true, if_false, step]
  | unreadable _ h1 h2 h3 =>
    obtain ⟨text, h4⟩ := Option.ne_none_iff_exists'.mp h1
    obtain ⟨x, h5⟩ := parseForm_unreadable h2
    rcases h3 with rfl | rfl
    · simp only [oneStep, h4, h5, step, registrationResponse, readResponse]
      split <;> rfl
    · simp only [oneStep, h4, h5, step, authenticationResponse, readResponse]
      split <;> rfl

/-- **C105** The one route answers like the four. -/
theorem C105_one_route {app : App} {asks : List Ask} {evs : List Event}
    (h : List.Forall₂ (Meant app) asks evs) :
    oneRun app asks = run app evs ∧
    ∀ a e, Meant app a e → oneReply app asks a = reply app evs e := by
  have main : ∀ db, asks.foldl (fun db a => (oneStep app a db).2) db =
      evs.foldl (fun db e => (step app e db).2) db := by
    induction h with
    | nil => exact fun _ => rfl
    | cons h _ ih =>
      intro db
      rw [List.foldl_cons, List.foldl_cons, oneStep_meant h]
      exact ih _
  have h1 : oneRun app asks = run app evs := main {}
  refine ⟨h1, fun a e hm => ?_⟩
  rw [oneReply, reply, h1, oneStep_meant hm]

/-- **C105** Every request to the one route means one of the four. -/
theorem C105_total (app : App) (a : Ask) : ∃ e, Meant app a e := by
  by_cases h1 : a.form.credential = none
  · by_cases h2 : a.ceremony = some "registration"
    · exact ⟨_, .registration a h1 h2⟩
    · exact ⟨_, .login a h1 h2⟩
  · by_cases h2 : ∃ cid c name, Readable app a.form cid c name
    · obtain ⟨cid, c, name, h2⟩ := h2
      cases hr : c.response with
      | attestation cdj ob => exact ⟨_, .attestation a cid c name h2 ⟨_, _, hr⟩⟩
      | assertion cdj raw sig handle => exact ⟨_, .assertion a cid c name h2 ⟨_, _, _, _, hr⟩⟩
    · refine ⟨_, .unreadable a _ h1 (fun cid c name h => h2 ⟨cid, c, name, h⟩) (Or.inl rfl)⟩

/-- **C105** Every request to the four that is not for the wrong one can be made to the one. -/
theorem C105_onto (app : App) (e : Event) : Misdirected app e ∨ ∃ a, Meant app a e := by
  cases e with
  | registrationRequest n h c t =>
    exact Or.inr ⟨⟨some "registration", { username := n, challengeID := none, credential := none }, h, c, t⟩,
      .registration ⟨some "registration", { username := n, challengeID := none, credential := none }, h, c, t⟩
        rfl rfl⟩
  | authenticationRequest n c t =>
    exact Or.inr ⟨⟨none, { username := n, challengeID := none, credential := none }, [], c, t⟩,
      .login ⟨none, { username := n, challengeID := none, credential := none }, [], c, t⟩ rfl (by simp)⟩
  | registrationResponse f t =>
    by_cases h1 : f.credential = none
    · exact Or.inl (.empty _ f t h1 (Or.inl rfl))
    by_cases h2 : ∃ cid c name, Readable app f cid c name
    · obtain ⟨cid, c, name, h2⟩ := h2
      cases hr : c.response with
      | attestation cdj ob =>
        exact Or.inr ⟨⟨none, f, [], [], t⟩, .attestation ⟨none, f, [], [], t⟩ cid c name h2 ⟨_, _, hr⟩⟩
      | assertion cdj raw sig handle => exact Or.inl (.registration f t cid c name h2 ⟨_, _, _, _, hr⟩)
    · exact Or.inr ⟨⟨none, f, [], [], t⟩, .unreadable ⟨none, f, [], [], t⟩ _ h1
        (fun cid c name h => h2 ⟨cid, c, name, h⟩) (Or.inl rfl)⟩
  | authenticationResponse f t =>
    by_cases h1 : f.credential = none
    · exact Or.inl (.empty _ f t h1 (Or.inr rfl))
    by_cases h2 : ∃ cid c name, Readable app f cid c name
    · obtain ⟨cid, c, name, h2⟩ := h2
      cases hr : c.response with
      | attestation cdj ob => exact Or.inl (.login f t cid c name h2 ⟨_, _, hr⟩)
      | assertion cdj raw sig handle =>
        exact Or.inr ⟨⟨none, f, [], [], t⟩, .assertion ⟨none, f, [], [], t⟩ cid c name h2 ⟨_, _, _, _, hr⟩⟩
    · exact Or.inr ⟨⟨none, f, [], [], t⟩, .unreadable ⟨none, f, [], [], t⟩ _ h1
        (fun cid c name h => h2 ⟨cid, c, name, h⟩) (Or.inr rfl)⟩

/-- **C105** What is sent to the wrong one of the four is refused, and nothing changes. -/
theorem C105_misdirected {app : App} {evs : List Event} {e : Event} (h : Misdirected app e) :
    (reply app evs e = .text "Invalid response type" 400 ∨
      reply app evs e = .text "Could not parse input data" 400) ∧
    run app (evs ++ [e]) = run app evs := by
  rw [run_snoc, reply]
  cases h with
  | registration f t cid c name h1 h2 =>
    obtain ⟨_, _, _, _, h2⟩ := h2
    simp [step, registrationResponse, readResponse, parseForm_readable.mpr h1, h2, isAttestation]
  | login f t cid c name h1 h2 =>
    obtain ⟨_, _, h2⟩ := h2
    simp [step, authenticationResponse, readResponse, parseForm_readable.mpr h1, h2, isAttestation]
  | empty _ f t h1 h2 =>
    have hp : ∃ x, parseForm app.env f = .error x ∧ x.isException = true := by
      cases hc : f.challengeID <;> simp [parseForm, formField, hc, h1] <;> rfl
    obtain ⟨x, h3, h4⟩ := hp
    rcases h2 with rfl | rfl
    · simp [step, registrationResponse, readResponse, h3, h4]
    · simp [step, authenticationResponse, readResponse, h3, h4]

/-- **C105** No form is good for both ceremonies. -/
theorem C105_no_confusion {app : App} {evs evs' : List Event} {f : Form} {t t' : Int}
    (h : reply app evs (.registrationResponse f t) = success) :
    reply app evs' (.authenticationResponse f t') ≠ success := by
  intro h'
  obtain ⟨n, c, name, ch, u, o, raw, acd, k, key, h1, -, -, -, -, -, h2, -⟩ := registration_success h
  obtain ⟨n', c', name', ch', u', r', k', user, rp', ad, h3, -, -, -, -, -, -, -, -, h4, -⟩ := authentication_success h'
  obtain ⟨-, rfl, -⟩ := submits_unique h1 h3
  obtain ⟨cdj, ob, h5, -⟩ := h2
  obtain ⟨cdj', raw', sig, handle, h6, -⟩ := h4
  have h7 : c.response = .attestation cdj ob := h5
  have h8 : c.response = .assertion cdj' raw' sig handle := h6
  rw [h7] at h8
  cases h8

end WebAuthn.Flask
