import Verif.Spec.Traces
import Verif.Model.Together
import Verif.Props.Flask

/-!
# What is left of requests that were refused (C113)
-/

namespace WebAuthn.Flask

open WebAuthn WebAuthn.Spec WebAuthn.Props

variable {app : App} {db : Db}

theorem obtained_success : Obtained success := Or.inr rfl

theorem attestation_kept {env : Env} {r : AttestationRecord} (h : (registerAttestation env r db).1 ≠ .ok none) :
    (registerAttestation env r db).2 = db := by
  revert h
  unfold registerAttestation
  repeat' split
  all_goals first | exact fun _ => rfl | exact fun h => absurd rfl h

theorem assertion_kept {r : AssertionRecord} (h : (registerAssertion r db).1 ≠ .ok none) :
    (registerAssertion r db).2 = db := by
  revert h
  unfold registerAssertion
  split
  · exact fun _ => rfl
  · exact fun h => absurd rfl h

/-- A response that does not succeed changes nothing. -/
theorem response_kept {e : Event} (he : (∃ f t, e = .registrationResponse f t) ∨ ∃ f t, e = .authenticationResponse f t)
    (h : (step app e db).1 ≠ success) : (step app e db).2 = db := by
  rcases he with ⟨f, t, rfl⟩ | ⟨f, t, rfl⟩
  · have h : (registrationResponse app f t db).1 ≠ success := h
    show (registrationResponse app f t db).2 = db
    revert h
    unfold registrationResponse
    cases readResponse app true f t db with
    | error r => exact fun _ => rfl
    | ok x =>
      obtain ⟨c, ch, u⟩ := x
      simp only
      unfold handleAttestation
      cases attestationChecks app.env (attestationArgs c ch u) with
      | error e => exact fun _ => rfl
      | ok r =>
        intro h
        refine attestation_kept (env := app.env) (r := r) fun hn => h ?_
        simp only [registrar, hn]
        rfl
  · have h : (authenticationResponse app f t db).1 ≠ success := h
    show (authenticationResponse app f t db).2 = db
    revert h
    unfold authenticationResponse
    cases readResponse app false f t db with
    | error r => exact fun _ => rfl
    | ok x =>
      obtain ⟨c, ch, u⟩ := x
      simp only
      unfold handleAssertion
      cases assertionPre app.env (assertionArgs c ch u) with
      | error e => exact fun _ => rfl
      | ok allowed =>
        simp only [registrar]
        cases checkRead (credentialData app.env (assertionArgs c ch u).credential.rawId db) with
        | error e => exact fun _ => rfl
        | ok cd =>
          simp only
          cases assertionChecks app.env (assertionArgs c ch u) allowed cd with
          | error e => exact fun _ => rfl
          | ok r =>
            intro h
            refine assertion_kept (r := r) fun hn => h ?_
            simp only [hn]
            rfl

theorem authenticationRequest_kept {n : Option String} {ch : Bytes} {t : Int}
    (h : ¬ Obtained (step app (.authenticationRequest n ch t) db).1) :
    (step app (.authenticationRequest n ch t) db).2 = db := by
  have h : ¬ Obtained (authenticationRequest n ch t db).1 := h
  show (authenticationRequest n ch t db).2 = db
  cases n with
  | none => rfl
  | some name =>
    simp only [authenticationRequest] at h ⊢
    cases hu : db.userNamed name with
    | none => rfl
    | some u =>
      simp only [hu] at h ⊢
      rcases addChallenge_cases db ch t u.id with ha | ⟨-, ha⟩
      · rw [ha]
      · rw [ha] at h
        obtain ⟨v, hv, -⟩ := request_reply (db.challenges.length + 1) (db.credentials.filter fun c => c.userId == u.id) ch
        exact absurd (Or.inl ⟨_, hv⟩) h

/-- The variant is the application, unless the challenge was stored before. -/
theorem together_eq {name : String} {hd ch : Bytes} {t : Int} (h : ∀ c ∈ db.challenges, c.request ≠ ch) :
    togetherRequest (some name) hd ch t db = registrationRequest (some name) hd ch t db := by
  have any : ∀ us : List User, (db.challenges.any fun c => c.request == ch) = false := by
    intro _
    rw [List.any_eq_false]
    exact fun c hc => by simpa using h c hc
  rcases findOrAddUser_cases db name hd with ⟨u, -, -, hf⟩ | hf | ⟨-, hf⟩
  · rcases addChallenge_cases db ch t u.id with ha | ⟨-, ha⟩ <;>
      simp only [togetherRequest, registrationRequest, hf, ha]
  · simp only [togetherRequest, registrationRequest, hf]
  · simp only [togetherRequest, registrationRequest, hf, Db.addChallenge, any []]
    rfl

theorem together_kept {n : Option String} {hd ch : Bytes} {t : Int} (h : ¬ Obtained (togetherRequest n hd ch t db).1) :
    (togetherRequest n hd ch t db).2 = db := by
  cases n with
  | none => rfl
  | some name =>
    simp only [togetherRequest] at h ⊢
    rcases hf : findOrAddUser db name hd with ⟨e | u, d⟩
    · rfl
    · simp only [hf] at h ⊢
      rcases ha : d.addChallenge ch t u.id with ⟨e | id, d'⟩
      · rfl
      · simp only [ha] at h
        obtain ⟨v, hv, -⟩ := creation_reply id { name := name, id := u.handle, displayName := name } ch
        exact absurd (Or.inl ⟨_, hv⟩) h

theorem togetherStep_kept {e : Event} (h : ¬ Obtained (togetherStep app e db).1) : (togetherStep app e db).2 = db := by
  cases e with
  | registrationRequest n hd ch t => exact together_kept h
  | authenticationRequest n ch t => exact authenticationRequest_kept (app := app) h
  | registrationResponse f t => exact response_kept (Or.inl ⟨f, t, rfl⟩) fun hs => h (hs ▸ obtained_success)
  | authenticationResponse f t => exact response_kept (Or.inr ⟨f, t, rfl⟩) fun hs => h (hs ▸ obtained_success)

theorem step_kept {e : Event} (hn : ∀ name hd ch t, e = .registrationRequest (some name) hd ch t →
    ∀ c ∈ db.challenges, c.request ≠ ch) : togetherStep app e db = step app e db := by
  cases e with
  | registrationRequest n hd ch t =>
    cases n with
    | none => rfl
    | some name => exact together_eq (hn name hd ch t rfl)
  | authenticationRequest n ch t => rfl
  | registrationResponse f t => rfl
  | authenticationResponse f t => rfl

theorem togetherRun_snoc (app : App) (evs : List Event) (e : Event) :
    togetherRun app (evs ++ [e]) = (togetherStep app e (togetherRun app evs)).2 := by
  simp [togetherRun, List.foldl_append]

theorem together_run {evs kept : List Event} (h : Logged (togetherReply app) evs kept) :
    togetherRun app kept = togetherRun app evs := by
  induction h with
  | nil => rfl
  | served _ _ ih => rw [togetherRun_snoc, togetherRun_snoc, ih]
  | refused _ hs ih => rw [togetherRun_snoc, ih]; exact (togetherStep_kept hs).symm

/-- C113, for the variant: every request gets the reply it would get had those that were refused never been sent. -/
theorem C113_repaired (app : App) : Traceless (togetherReply app) := by
  intro evs kept h e
  rw [togetherReply, togetherReply, together_run h]

theorem NewChallenges.init {rep : List Event → Event → Reply} {evs : List Event} {e : Event}
    (h : NewChallenges rep (evs ++ [e])) : NewChallenges rep evs := by
  rintro pre name hd ch t ⟨post, rfl⟩
  exact h pre name hd ch t ⟨post ++ [e], by simp⟩

theorem NewChallenges.last {evs : List Event} {e : Event} (h : NewChallenges (reply app) (evs ++ [e])) :
    togetherStep app e (run app evs) = step app e (run app evs) := by
  refine step_kept ?_
  rintro name hd ch t rfl c hc rfl
  obtain ⟨pre, x, u, ho, -, -, hi⟩ := (inv_run app evs).challenges c hc
  exact h evs name hd c.request t ⟨[], rfl⟩ pre x _ _ _ ho hi

/-- C113: where no challenge is drawn again the variant is the application. -/
theorem C113_same_run {evs : List Event} (h : NewChallenges (reply app) evs) : togetherRun app evs = run app evs := by
  induction evs using List.reverseRecOn with
  | nil => rfl
  | append_singleton evs e ih => rw [togetherRun_snoc, run_snoc, ih h.init, h.last]

/-- The replies are the same as well. -/
theorem C113_same {evs : List Event} {e : Event} (h : NewChallenges (reply app) (evs ++ [e])) :
    togetherReply app evs e = reply app evs e := by
  rw [togetherReply, C113_same_run h.init, h.last, reply]

/-- C113, for the application, where no challenge is drawn again.  Missing: a registration that draws a challenge which was
issued before, of which it is false (`C113_refuted`). -/
theorem C113_partial {evs kept : List Event} (hn : NewChallenges (reply app) evs) (h : Logged (reply app) evs kept) :
    run app kept = run app evs ∧ ∀ e, reply app evs e = reply app kept e := by
  have key : run app kept = run app evs := by
    induction h with
    | nil => rfl
    | served _ _ ih => rw [run_snoc, run_snoc, ih hn.init]
    | @refused evs kept e _ hs ih =>
      rw [run_snoc, ih hn.init]
      have hl := hn.last
      rw [← hl]
      refine (togetherStep_kept ?_).symm
      rw [hl]
      exact hs
  exact ⟨key, fun e => by rw [reply, reply, key]⟩

/-- C113: what was kept, sent again to a new instance, is served again. -/
theorem C113_replay {evs kept pre : List Event} {e : Event} (h : Logged (togetherReply app) evs kept) (ho : Occurs kept pre e) :
    Obtained (togetherReply app pre e) := by
  induction h with
  | nil => obtain ⟨post, hp⟩ := ho; simp at hp
  | @served evs kept x hk hs ih =>
    obtain ⟨post, hp⟩ := ho
    rcases List.eq_nil_or_concat post with rfl | ⟨post', y, rfl⟩
    · obtain ⟨rfl, h2⟩ := List.append_inj' hp rfl
      obtain rfl : x = e := by simpa using h2
      rw [← C113_repaired app _ _ hk]
      exact hs
    · rw [List.concat_eq_append] at hp
      have hp : kept ++ [x] = (pre ++ e :: post') ++ [y] := by simpa using hp
      exact ih ⟨post', (List.append_inj' hp rfl).1⟩
  | refused _ _ ih => exact ih ho

/-! ## The application leaves a user behind -/

namespace Traces

def first : Event := .registrationRequest (some "a") [1] [7] 0

/-- Draws the same challenge. -/
def second : Event := .registrationRequest (some "b") [2] [7] 0

def third : Event := .authenticationRequest (some "b") [8] 0

theorem first_served (app : App) : Obtained (reply app [] first) := by
  obtain ⟨v, hv, -⟩ := creation_reply 1 { name := "a", id := [1], displayName := "a" } [7]
  exact Or.inl ⟨_, hv⟩

theorem second_refused (app : App) : ¬ Obtained (reply app [first] second) := by
  have h : reply app [first] second = .crash integrityError := rfl
  rw [h]
  rintro (⟨v, h⟩ | h) <;> cases h

theorem kept (app : App) : Logged (reply app) [first, second] [first] :=
  .refused (evs := [first]) (.served (evs := []) (kept := []) .nil (first_served app)) (second_refused app)

end Traces

open Traces in
/-- C113 is false of every instance of the application. -/
theorem C113_refuted (app : App) : ¬ Traceless (reply app) := by
  intro h
  have h1 := h _ _ (kept app) third
  obtain ⟨v, hv, -⟩ := request_reply 2 [] [8]
  have h2 : reply app [first, second] third = .json (.dict [(.str "challengeID", .int 2), (.str "requestOptions", v)]) :=
    Eq.trans rfl hv
  have h3 : reply app [first] third = .text "User not registered" 400 := rfl
  rw [h2, h3] at h1
  cases h1

end WebAuthn.Flask
