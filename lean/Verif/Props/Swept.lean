import Verif.Model.Swept
import Verif.Spec.Swept
import Verif.Props.FlaskOwned

/-!
# What the tables of the example application hold (C95)
-/

namespace WebAuthn.Flask

open WebAuthn WebAuthn.Spec WebAuthn.Props

/-! ## The backend does not look at challenges -/

/-- The tables with other challenges. -/
def Db.withChallenges (db : Db) (cs : List Challenge) : Db := { db with challenges := cs }

theorem registerAttestation_challenges (env : Env) (r : AttestationRecord) (db : Db)
    (cs : List Challenge) : registerAttestation env r (db.withChallenges cs) =
      ((registerAttestation env r db).1, (registerAttestation env r db).2.withChallenges cs) := by
  simp only [registerAttestation, Db.userOfHandle, Db.withChallenges]
  repeat' split
  all_goals first | rfl | simp_all

theorem registerAssertion_challenges (r : AssertionRecord) (db : Db)
    (cs : List Challenge) : registerAssertion r (db.withChallenges cs) =
      ((registerAssertion r db).1, (registerAssertion r db).2.withChallenges cs) := by
  simp only [registerAssertion, Db.credential, Db.withChallenges]
  split <;> rfl

theorem credentialData_challenges (env : Env) (id : Bytes) (db : Db) (cs : List Challenge) :
    credentialData env id (db.withChallenges cs) = credentialData env id db := rfl

theorem handleAttestation_challenges (env : Env) (a : AttestationArgs) (db : Db)
    (cs : List Challenge) : handleAttestation env (registrar env) a (db.withChallenges cs) =
      ((handleAttestation env (registrar env) a db).1,
        (handleAttestation env (registrar env) a db).2.withChallenges cs) := by
  unfold handleAttestation
  split
  · rfl
  · simp only [registrar, registerAttestation_challenges]

theorem handleAssertion_challenges (env : Env) (a : AssertionArgs) (db : Db)
    (cs : List Challenge) : handleAssertion env (registrar env) a (db.withChallenges cs) =
      ((handleAssertion env (registrar env) a db).1,
        (handleAssertion env (registrar env) a db).2.withChallenges cs) := by
  unfold handleAssertion
  split
  · rfl
  · simp only [registrar, credentialData_challenges]
    split
    · rfl
    · split
      · rfl
      · simp only [registerAssertion_challenges]

/-! ## Sweeping -/

theorem sweep_eq (db : Db) (now : Int) : db.sweep now =
    db.withChallenges (db.challenges.filter fun c => decide (now - c.timestamp ≤ timeout)) := rfl

theorem sweep_sweep (db : Db) {now now' : Int} (h : now ≤ now') :
    (db.sweep now).sweep now' = db.sweep now' := by
  simp only [Db.sweep, List.filter_filter]
  congr 1
  refine List.filter_congr fun c _ => ?_
  rw [← Bool.decide_and, decide_eq_decide]
  constructor
  · exact fun h => h.1
  · exact fun h' => ⟨h', by omega⟩

theorem withChallenges_self (db : Db) : db.withChallenges db.challenges = db := rfl

theorem handleAttestation_keeps (env : Env) (a : AttestationArgs) (db : Db) :
    (handleAttestation env (registrar env) a db).2.challenges = db.challenges := by
  have h := congrArg (fun x => x.2.challenges) (handleAttestation_challenges env a db db.challenges)
  rwa [withChallenges_self] at h

theorem handleAssertion_keeps (env : Env) (a : AssertionArgs) (db : Db) :
    (handleAssertion env (registrar env) a db).2.challenges = db.challenges := by
  have h := congrArg (fun x => x.2.challenges) (handleAssertion_challenges env a db db.challenges)
  rwa [withChallenges_self] at h

theorem handleAttestation_sweep (env : Env) (a : AttestationArgs) (db : Db) (now : Int) :
    handleAttestation env (registrar env) a (db.sweep now) =
      ((handleAttestation env (registrar env) a db).1,
        (handleAttestation env (registrar env) a db).2.sweep now) := by
  rw [sweep_eq, handleAttestation_challenges, sweep_eq, handleAttestation_keeps]

theorem handleAssertion_sweep (env : Env) (a : AssertionArgs) (db : Db) (now : Int) :
    handleAssertion env (registrar env) a (db.sweep now) =
      ((handleAssertion env (registrar env) a db).1,
        (handleAssertion env (registrar env) a db).2.sweep now) := by
  rw [sweep_eq, handleAssertion_challenges, sweep_eq, handleAssertion_keeps]

/-- The refusals of a response with a stale challenge. -/
inductive StaleRefusal : Reply → Prop
  | timeout : StaleRefusal (.text "Timeout" 408)
  | user : StaleRefusal (.text "Invalid username" 400)

def notFound : Reply := .text "Could not find challenge matching given id" 400

/-- The form names a stale challenge. -/
def NamesStale (app : App) (f : Form) (now : Int) (db : Db) : Prop :=
  ∃ cid ch, f.challengeID = some cid ∧ ch ∈ db.challenges ∧ app.rowId cid = some ch.id ∧
    now - ch.timestamp > 60000

theorem readResponse_sweep {app : App} {db : Db} (hu : db.challenges.Pairwise fun a b => a.id ≠ b.id)
    (att : Bool) (f : Form) (now : Int) :
    readResponse app att f now (db.sweep now) = readResponse app att f now db ∨
    (NamesStale app f now db ∧ readResponse app att f now (db.sweep now) = .error notFound ∧
      ∃ r, readResponse app att f now db = .error r ∧ StaleRefusal r) := by
  unfold readResponse
  split
  · exact Or.inl rfl
  rename_i cid c name hp
  split
  · exact Or.inl rfl
  rename_i hk
  cases hn : app.rowId cid with
  | none => exact Or.inl rfl
  | some n =>
    have hcid : f.challengeID = some cid := by
      simp only [parseForm, bind_ok_iff] at hp
      obtain ⟨cid', h1, hp⟩ := hp
      obtain ⟨text, -, hp⟩ := hp
      obtain ⟨v, -, hp⟩ := hp
      obtain ⟨cr, -, hp⟩ := hp
      obtain ⟨nm, -, hp⟩ := hp
      cases hp
      unfold formField at h1
      split at h1
      · cases h1
      · cases h1
        assumption
    cases hc : db.challenges.find? fun c => c.id == n with
    | none =>
      left
      have : (db.sweep now).challenges.find? (fun c => c.id == n) = none := by
        rw [List.find?_eq_none] at hc ⊢
        exact fun x hx => hc x (List.mem_filter.mp hx).1
      simp only [Db.challenge, hc, this]
    | some ch =>
      have hm := List.mem_of_find?_eq_some hc
      have hid : ch.id = n := by simpa using List.find?_some hc
      by_cases hs : now - ch.timestamp ≤ timeout
      · left
        have : (db.sweep now).challenges.find? (fun c => c.id == n) = some ch := by
          cases hf : (db.sweep now).challenges.find? (fun c => c.id == n) with
          | none =>
            rw [List.find?_eq_none] at hf
            exact absurd (by simp [hid])
              (hf ch (List.mem_filter.mpr ⟨hm, by simpa using hs⟩))
          | some x =>
            have hx := (List.mem_filter.mp (List.mem_of_find?_eq_some hf)).1
            have hxn : x.id = n := by simpa using List.find?_some hf
            rw [pairwise_unique hu hx hm (hxn.trans hid.symm)]
        simp only [Db.challenge, hc, this]
        rfl
      · right
        have : (db.sweep now).challenges.find? (fun c => c.id == n) = none := by
          rw [List.find?_eq_none]
          intro x hx hxn
          obtain ⟨hx1, hx2⟩ := List.mem_filter.mp hx
          have : x = ch := pairwise_unique hu hx1 hm (by simpa [hid] using hxn)
          subst this
          exact hs (by simpa using hx2)
        refine ⟨⟨cid, ch, hcid, hm, by rw [hn, hid], by simp only [timeout] at hs; omega⟩, ?_, ?_⟩
        · simp only [Db.challenge, this]
          rfl
        · simp only [Db.challenge, hc]
          split
          · exact ⟨_, rfl, .user⟩
          · rw [if_pos (by omega)]
            exact ⟨_, rfl, .timeout⟩

/-- The reply is the same, but for the text of the refusal of a stale challenge. -/
def Agree (app : App) (e : Event) (db : Db) (r r' : Reply) : Prop :=
  r = r' ∨ (∃ f t, (e = .registrationResponse f t ∨ e = .authenticationResponse f t) ∧
    NamesStale app f t db) ∧ r = notFound ∧ StaleRefusal r'

theorem registrationResponse_sweep {app : App} {db : Db}
    (hu : db.challenges.Pairwise fun a b => a.id ≠ b.id) (f : Form) (now : Int) :
    (registrationResponse app f now (db.sweep now)).2 = (registrationResponse app f now db).2.sweep now ∧
    Agree app (.registrationResponse f now) db (registrationResponse app f now (db.sweep now)).1
      (registrationResponse app f now db).1 := by
  rcases readResponse_sweep (app := app) hu true f now with h | ⟨h1, h2, r, h3, h4⟩
  · unfold registrationResponse
    rw [h]
    split
    · exact ⟨rfl, Or.inl rfl⟩
    · simp only [handleAttestation_sweep]
      exact ⟨trivial, Or.inl rfl⟩
  · unfold registrationResponse
    rw [h2, h3]
    exact ⟨rfl, Or.inr ⟨⟨f, now, Or.inl rfl, h1⟩, rfl, h4⟩⟩

theorem authenticationResponse_sweep {app : App} {db : Db}
    (hu : db.challenges.Pairwise fun a b => a.id ≠ b.id) (f : Form) (now : Int) :
    (authenticationResponse app f now (db.sweep now)).2 =
      (authenticationResponse app f now db).2.sweep now ∧
    Agree app (.authenticationResponse f now) db (authenticationResponse app f now (db.sweep now)).1
      (authenticationResponse app f now db).1 := by
  rcases readResponse_sweep (app := app) hu false f now with h | ⟨h1, h2, r, h3, h4⟩
  · unfold authenticationResponse
    rw [h]
    split
    · exact ⟨rfl, Or.inl rfl⟩
    · simp only [handleAssertion_sweep]
      exact ⟨trivial, Or.inl rfl⟩
  · unfold authenticationResponse
    rw [h2, h3]
    exact ⟨rfl, Or.inr ⟨⟨f, now, Or.inr rfl, h1⟩, rfl, h4⟩⟩

theorem response_keeps (app : App) (db : Db) (f : Form) (t : Int) :
    (registrationResponse app f t db).2.challenges = db.challenges ∧
    (authenticationResponse app f t db).2.challenges = db.challenges := by
  constructor
  · unfold registrationResponse
    split
    · rfl
    · simp only [handleAttestation_keeps]
  · unfold authenticationResponse
    split
    · rfl
    · simp only [handleAssertion_keeps]

theorem findOrAddUser_sweep (db : Db) (name : String) (h : Bytes) (now : Int) :
    findOrAddUser (db.sweep now) name h =
      ((findOrAddUser db name h).1, (findOrAddUser db name h).2.sweep now) := by
  simp only [findOrAddUser, Db.userNamed, Db.addUser, Db.sweep]
  repeat' split
  all_goals simp_all

theorem findOrAddUser_keeps (db : Db) (name : String) (h : Bytes) :
    (findOrAddUser db name h).2.challenges = db.challenges := by
  simp only [findOrAddUser, Db.addUser]
  repeat' split
  all_goals simp_all

theorem sweptChallenge_eq {db : Db} {ch : Bytes} (hnew : ∀ c ∈ db.challenges, c.request ≠ ch)
    (now : Int) (uid : Nat) :
    db.addChallenge ch now uid = (.ok (db.challenges.length + 1),
      db.withChallenges (db.challenges ++ [⟨db.challenges.length + 1, ch, now, uid⟩])) ∧
    sweptChallenge (db.sweep now) (db.challenges.length + 1) ch now uid =
      (.ok (db.challenges.length + 1),
        ⟨(db.withChallenges (db.challenges ++ [⟨db.challenges.length + 1, ch, now, uid⟩])).sweep now,
          db.challenges.length + 2⟩) := by
  have h1 : db.challenges.any (fun c => c.request == ch) = false := by
    simpa using hnew
  have h2 : (db.sweep now).challenges.any (fun c => c.request == ch) = false := by
    simp only [Db.sweep, List.any_eq_false]
    intro c hc
    simpa using hnew c (List.mem_filter.mp hc).1
  constructor
  · simp only [Db.addChallenge, h1, Bool.false_eq_true, if_false]
    rfl
  · simp only [sweptChallenge, h2, Bool.false_eq_true, if_false]
    simp [Db.sweep, Db.withChallenges, timeout]

/-- One request. -/
theorem step_sweep {app : App} {db : Db} {s : Swept} {e : Event}
    (hu : db.challenges.Pairwise fun a b => a.id ≠ b.id)
    (hnew : ∀ ch t, asked e = some (ch, t) → ∀ c ∈ db.challenges, c.request ≠ ch)
    (hs : s.db.sweep e.clock = db.sweep e.clock) (hn : s.next = db.challenges.length + 1) :
    (sweptStep app e s).2.db = (step app e db).2.sweep e.clock ∧
    (sweptStep app e s).2.next = (step app e db).2.challenges.length + 1 ∧
    Agree app e db (sweptStep app e s).1 (step app e db).1 := by
  cases e with
  | registrationResponse f t =>
    have h := registrationResponse_sweep (app := app) hu f t
    replace hs : s.db.sweep t = db.sweep t := hs
    simp only [sweptStep, Event.clock, hs, step]
    exact ⟨h.1, by rw [hn, (response_keeps app db f t).1], h.2⟩
  | authenticationResponse f t =>
    have h := authenticationResponse_sweep (app := app) hu f t
    replace hs : s.db.sweep t = db.sweep t := hs
    simp only [sweptStep, Event.clock, hs, step]
    exact ⟨h.1, by rw [hn, (response_keeps app db f t).2], h.2⟩
  | registrationRequest name hd ch t =>
    replace hs : s.db.sweep t = db.sweep t := hs
    simp only [sweptStep, Event.clock, hs, hn, step, sweptRegistrationRequest, registrationRequest]
    cases name with
    | none => exact ⟨rfl, rfl, Or.inl rfl⟩
    | some name =>
      simp only [findOrAddUser_sweep]
      have hk := findOrAddUser_keeps db name hd
      cases hf : findOrAddUser db name hd with
      | mk r d =>
        rw [hf] at hk
        cases r with
        | error x => exact ⟨rfl, by rw [← hk], Or.inl rfl⟩
        | ok u =>
          have hnew' : ∀ c ∈ d.challenges, c.request ≠ ch := by
            rw [show d.challenges = db.challenges from hk]
            exact hnew ch t rfl
          obtain ⟨e1, e2⟩ := sweptChallenge_eq hnew' t u.id
          simp only [e1, ← show d.challenges = db.challenges from hk, e2]
          exact ⟨trivial, by simp [Db.withChallenges], Or.inl rfl⟩
  | authenticationRequest name ch t =>
    replace hs : s.db.sweep t = db.sweep t := hs
    simp only [sweptStep, Event.clock, hs, hn, step, sweptAuthenticationRequest, authenticationRequest]
    cases name with
    | none => exact ⟨rfl, rfl, Or.inl rfl⟩
    | some name =>
      simp only [show (db.sweep t).userNamed name = db.userNamed name from rfl,
        show (db.sweep t).credentials = db.credentials from rfl]
      cases hf : db.userNamed name with
      | none => exact ⟨rfl, rfl, Or.inl rfl⟩
      | some u =>
        obtain ⟨e1, e2⟩ := sweptChallenge_eq (hnew ch t rfl) t u.id
        simp only [e1, e2]
        exact ⟨trivial, by simp [Db.withChallenges], Or.inl rfl⟩

/-! ## Histories -/

theorem at_clock {e : Event} {t : Int} : At e t ↔ e.clock = t := by
  constructor
  · rintro (_ | _) <;> rfl
  · rintro rfl
    cases e <;> constructor

theorem asked_clock {e : Event} {ch : Bytes} {t : Int} (h : asked e = some (ch, t)) : e.clock = t := by
  unfold asked at h
  split at h <;> cases h <;> rfl

theorem challengeIds_ne (app : App) (evs : List Event) :
    (run app evs).challenges.Pairwise fun a b => a.id ≠ b.id := by
  rw [List.pairwise_iff_getElem]
  intro i j hi hj hij
  have h := (inv_run app evs).challengeIds
  rw [h i _ (List.getElem?_eq_getElem hi), h j _ (List.getElem?_eq_getElem hj)]
  omega

theorem asked_of_row {app : App} {evs : List Event} {c : Challenge} (h : c ∈ (run app evs).challenges) :
    ∃ e ∈ evs, asked e = some (c.request, c.timestamp) := by
  obtain ⟨pre, e, u, ⟨post, rfl⟩, -, -, hi⟩ := (inv_run app evs).challenges c h
  refine ⟨e, by simp, ?_⟩
  rcases hi.2 with ⟨hd, rfl⟩ | rfl <;> rfl

theorem sweptRun_snoc (app : App) (evs : List Event) (e : Event) :
    sweptRun app (evs ++ [e]) = (sweptStep app e (sweptRun app evs)).2 := by
  simp [sweptRun, List.foldl_append]

/-- A history and the next request. -/
theorem sweptRun_step {app : App} {evs : List Event} {e : Event} (hc : ClockForward (evs ++ [e]))
    (hr : NotDrawnAgain (evs ++ [e])) :
    (sweptStep app e (sweptRun app evs)).2.db = (step app e (run app evs)).2.sweep e.clock ∧
    (sweptStep app e (sweptRun app evs)).2.next = (step app e (run app evs)).2.challenges.length + 1 ∧
    Agree app e (run app evs) (sweptReply app evs e) (reply app evs e) := by
  induction evs using List.reverseRecOn generalizing e with
  | nil => exact step_sweep .nil (by simp [run]) rfl rfl
  | append_singleton l a ih =>
    obtain ⟨hc1, -, hc2⟩ := List.pairwise_append.mp hc
    obtain ⟨hr1, -, hr2⟩ := List.pairwise_append.mp hr
    obtain ⟨h1, h2, -⟩ := ih hc1 hr1
    have ha : a.clock ≤ e.clock := hc2 a (by simp) e (by simp) _ _ (at_clock.mpr rfl) (at_clock.mpr rfl)
    refine step_sweep (challengeIds_ne app _) ?_ ?_ ?_
    · rintro ch t he c hm rfl
      obtain ⟨e', hm', he'⟩ := asked_of_row hm
      exact hr2 e' hm' e (by simp) _ _ _ he' he
    · rw [sweptRun_snoc, run_snoc, h1, sweep_sweep _ ha]
    · rw [sweptRun_snoc, run_snoc, h2]

/-! ## What is added to the tables -/

theorem addChallenge_adds (db : Db) (ch : Bytes) (t : Int) (uid : Nat) :
    (db.addChallenge ch t uid).2.challenges = db.challenges ∨
    ∃ n u, (db.addChallenge ch t uid).2.challenges = db.challenges ++ [⟨n, ch, t, u⟩] := by
  unfold Db.addChallenge
  split
  · exact Or.inl rfl
  · exact Or.inr ⟨_, _, rfl⟩

theorem sweptChallenge_adds (db : Db) (next : Nat) (ch : Bytes) (t : Int) (uid : Nat) :
    (sweptChallenge db next ch t uid).2.db.challenges = db.challenges ∨
    ∃ n u, (sweptChallenge db next ch t uid).2.db.challenges = db.challenges ++ [⟨n, ch, t, u⟩] := by
  unfold sweptChallenge
  split
  · exact Or.inl rfl
  · exact Or.inr ⟨_, _, rfl⟩

/-- The challenges `new` are `old`, or `old` and one for the request. -/
def MayAdd (e : Event) (old new : List Challenge) : Prop :=
  new = old ∨ ∃ ch t n u, asked e = some (ch, t) ∧ new = old ++ [⟨n, ch, t, u⟩]

theorem step_adds (app : App) (e : Event) (db : Db) :
    MayAdd e db.challenges (step app e db).2.challenges := by
  cases e with
  | registrationResponse f t => exact Or.inl (response_keeps app db f t).1
  | authenticationResponse f t => exact Or.inl (response_keeps app db f t).2
  | registrationRequest name hd ch t =>
    simp only [step, registrationRequest]
    cases name with
    | none => exact Or.inl rfl
    | some name =>
      have hk := findOrAddUser_keeps db name hd
      simp only
      generalize findOrAddUser db name hd = x at hk
      cases x with
      | mk r d =>
        replace hk : d.challenges = db.challenges := hk
        cases r with
        | error x => exact Or.inl hk
        | ok u =>
          have ha := addChallenge_adds d ch t u.id
          rw [hk] at ha
          simp only
          generalize d.addChallenge ch t u.id = x at ha
          rcases x with ⟨_ | _, d'⟩ <;> rcases ha with ha | ⟨n, u, ha⟩
          · exact Or.inl ha
          · exact Or.inr ⟨ch, t, n, u, rfl, ha⟩
          · exact Or.inl ha
          · exact Or.inr ⟨ch, t, n, u, rfl, ha⟩
  | authenticationRequest name ch t =>
    simp only [step, authenticationRequest]
    cases name with
    | none => exact Or.inl rfl
    | some name =>
      simp only
      generalize db.userNamed name = o
      cases o with
      | none => exact Or.inl rfl
      | some u =>
        have ha := addChallenge_adds db ch t u.id
        simp only
        generalize db.addChallenge ch t u.id = x at ha
        rcases x with ⟨_ | _, d'⟩ <;> rcases ha with ha | ⟨n, u, ha⟩
        · exact Or.inl ha
        · exact Or.inr ⟨ch, t, n, u, rfl, ha⟩
        · exact Or.inl ha
        · exact Or.inr ⟨ch, t, n, u, rfl, ha⟩

theorem sweptStep_adds (app : App) (e : Event) (s : Swept) :
    MayAdd e (s.db.sweep e.clock).challenges (sweptStep app e s).2.db.challenges := by
  cases e with
  | registrationResponse f t => exact Or.inl (response_keeps app _ f t).1
  | authenticationResponse f t => exact Or.inl (response_keeps app _ f t).2
  | registrationRequest name hd ch t =>
    simp only [sweptStep, Event.clock, sweptRegistrationRequest]
    generalize s.db.sweep t = db
    cases name with
    | none => exact Or.inl rfl
    | some name =>
      have hk := findOrAddUser_keeps db name hd
      simp only
      generalize findOrAddUser db name hd = x at hk
      cases x with
      | mk r d =>
        replace hk : d.challenges = db.challenges := hk
        cases r with
        | error x => exact Or.inl hk
        | ok u =>
          have ha := sweptChallenge_adds d s.next ch t u.id
          rw [hk] at ha
          simp only
          generalize sweptChallenge d s.next ch t u.id = x at ha
          rcases x with ⟨_ | _, d'⟩ <;> rcases ha with ha | ⟨n, u, ha⟩
          · exact Or.inl ha
          · exact Or.inr ⟨ch, t, n, u, rfl, ha⟩
          · exact Or.inl ha
          · exact Or.inr ⟨ch, t, n, u, rfl, ha⟩
  | authenticationRequest name ch t =>
    simp only [sweptStep, Event.clock, sweptAuthenticationRequest]
    generalize s.db.sweep t = db
    cases name with
    | none => exact Or.inl rfl
    | some name =>
      simp only
      generalize db.userNamed name = o
      cases o with
      | none => exact Or.inl rfl
      | some u =>
        have ha := sweptChallenge_adds db s.next ch t u.id
        simp only
        generalize sweptChallenge db s.next ch t u.id = x at ha
        rcases x with ⟨_ | _, d'⟩ <;> rcases ha with ha | ⟨n, u, ha⟩
        · exact Or.inl ha
        · exact Or.inr ⟨ch, t, n, u, rfl, ha⟩
        · exact Or.inl ha
        · exact Or.inr ⟨ch, t, n, u, rfl, ha⟩

/-- What a challenge was made of. -/
def Challenge.drawn (c : Challenge) : Bytes × Int := (c.request, c.timestamp)

theorem adds_sublist {e : Event} {old new : List Challenge} {evs : List Event} (h : MayAdd e old new)
    (hs : (old.map Challenge.drawn).Sublist (evs.filterMap asked)) :
    (new.map Challenge.drawn).Sublist ((evs ++ [e]).filterMap asked) := by
  rw [List.filterMap_append]
  rcases h with rfl | ⟨ch, t, n, u, he, rfl⟩
  · exact hs.trans (List.sublist_append_left _ _)
  · rw [List.map_append]
    refine hs.append ?_
    simp [he, Challenge.drawn]

theorem sweptRun_drawn (app : App) (evs : List Event) :
    ((sweptRun app evs).db.challenges.map Challenge.drawn).Sublist (evs.filterMap asked) := by
  induction evs using List.reverseRecOn with
  | nil => exact .slnil
  | append_singleton l a ih =>
    rw [sweptRun_snoc]
    exact adds_sublist (sweptStep_adds app a _) ((List.filter_sublist.map _).trans ih)

/-- C95, of the application: there are no more challenges than requests of them, each with the
bytes and the time of its request, and no response adds one.  Missing: they are kept for ever
(`C95_refuted`). -/
theorem C95_growth_partial (app : App) (evs : List Event) :
    ((run app evs).challenges.map fun c => (c.request, c.timestamp)).Sublist (evs.filterMap asked) ∧
    ∀ e, IsResponse e → (run app (evs ++ [e])).challenges = (run app evs).challenges := by
  constructor
  · induction evs using List.reverseRecOn with
    | nil => exact .slnil
    | append_singleton l a ih =>
      rw [run_snoc]
      exact adds_sublist (step_adds app a _) ih
  · rintro e ⟨f, t, rfl | rfl⟩
    · rw [run_snoc]
      exact (response_keeps app _ f t).1
    · rw [run_snoc]
      exact (response_keeps app _ f t).2

/-! ## The application keeps everything -/

/-- Requests of challenges by somebody who never answers. -/
def idleRequests (N : Nat) : List Event :=
  (List.range N).map fun i => .registrationRequest (some "a") [] (List.replicate i 0) 0

theorem idle_run (app : App) (N : Nat) :
    (run app (idleRequests N)).challenges.length = N ∧
    (∀ c ∈ (run app (idleRequests N)).challenges, c.timestamp = 0 ∧ c.request.length < N) ∧
    ((run app (idleRequests N)).users = [] ∨ (run app (idleRequests N)).users = [⟨1, "a", []⟩]) := by
  induction N with
  | zero => exact ⟨rfl, by simp [idleRequests, run], Or.inl rfl⟩
  | succ N ih =>
    obtain ⟨h1, h2, h3⟩ := ih
    have hs : idleRequests (N + 1) = idleRequests N ++
        [.registrationRequest (some "a") [] (List.replicate N 0) 0] := by
      simp [idleRequests, List.range_succ]
    have hadd : ∀ us cr uid, Db.addChallenge ⟨us, cr, (run app (idleRequests N)).challenges⟩
        (List.replicate N 0) 0 uid = (.ok (N + 1), ⟨us, cr, (run app (idleRequests N)).challenges ++
          [⟨N + 1, List.replicate N 0, 0, uid⟩]⟩) := by
      intro us cr uid
      unfold Db.addChallenge
      rw [if_neg]
      · simp only [h1]
      simp only [List.any_eq_true, beq_iff_eq, not_exists, not_and]
      intro c hc he
      have := (h2 c hc).2
      rw [he] at this
      simp at this
    have key : ∃ u, (step app (.registrationRequest (some "a") [] (List.replicate N 0) 0)
        (run app (idleRequests N))).2 = ⟨[⟨1, "a", []⟩],
          (run app (idleRequests N)).credentials, (run app (idleRequests N)).challenges ++
            [⟨N + 1, List.replicate N 0, 0, u⟩]⟩ := by
      refine ⟨1, ?_⟩
      revert h3 hadd
      generalize run app (idleRequests N) = db
      obtain ⟨us, cr, cs⟩ := db
      rintro (rfl | rfl) hadd <;>
        simp [step, registrationRequest, findOrAddUser, Db.userNamed, Db.addUser, hadd]
    obtain ⟨u, key⟩ := key
    rw [hs, run_snoc, key]
    refine ⟨by simp [h1], ?_, Or.inr rfl⟩
    intro c hc
    rcases List.mem_append.mp hc with hc | hc
    · exact ⟨(h2 c hc).1, Nat.lt_succ_of_lt (h2 c hc).2⟩
    · simp only [List.mem_singleton] at hc
      subst hc
      simp

/-- C95 is false of the application: by mere requests of challenges, none of which is answered, it
is made to keep any number of challenges that are all too old. -/
theorem C95_refuted (app : App) (N : Nat) : ∃ evs e now, At e now ∧ evs.length = N ∧
    (∀ e' ∈ evs ++ [e], ¬ IsResponse e') ∧ (run app (evs ++ [e])).challenges.length = N ∧
    ∀ c ∈ (run app (evs ++ [e])).challenges, now - c.timestamp > 60000 := by
  obtain ⟨h1, h2, -⟩ := idle_run app N
  refine ⟨idleRequests N, .authenticationRequest none [] 60001, 60001, .authenticationRequest .., ?_, ?_⟩
  · simp [idleRequests]
  have hrun : run app (idleRequests N ++ [.authenticationRequest none [] 60001]) =
      run app (idleRequests N) := by
    rw [run_snoc]
    rfl
  rw [hrun]
  refine ⟨?_, h1, fun c hc => by rw [(h2 c hc).1]; decide⟩
  rintro e he ⟨f, t, hx⟩
  rcases List.mem_append.mp he with he | he
  · obtain ⟨i, -, rfl⟩ := List.mem_map.mp he
    rcases hx with hx | hx <;> cases hx
  · simp only [List.mem_singleton] at he
    subst he
    rcases hx with hx | hx <;> cases hx

/-- C95: with sweeping, no challenge is kept that is too old. -/
theorem C95_repaired (app : App) : NoneStale fun evs => (sweptRun app evs).db.challenges := by
  intro evs e now hat c hc
  obtain rfl := at_clock.mp hat
  simp only [sweptRun_snoc] at hc
  rcases sweptStep_adds app e (sweptRun app evs) with h | ⟨ch, t, n, u, he, h⟩
  · rw [h] at hc
    simpa [timeout] using (List.mem_filter.mp hc).2
  · rw [h] at hc
    rcases List.mem_append.mp hc with hc | hc
    · simpa [timeout] using (List.mem_filter.mp hc).2
    · simp only [List.mem_singleton] at hc
      subst hc
      rw [asked_clock he]
      simp

/-- C95: with sweeping, there are no more challenges than requests in the last minute. -/
theorem C95_repaired_few (app : App) (evs : List Event) (e : Event) (now : Int) (hat : At e now) :
    (sweptRun app (evs ++ [e])).db.challenges.length ≤ (recent now (evs ++ [e])).length := by
  have h := (sweptRun_drawn app (evs ++ [e])).filter fun r => decide (now - r.2 ≤ 60000)
  rw [List.filter_eq_self.mpr] at h
  · simpa [recent] using h.length_le
  · intro r hr
    obtain ⟨c, hc, rfl⟩ := List.mem_map.mp hr
    exact decide_eq_true (C95_repaired app evs e now hat c hc)

/-- C95: with sweeping, requests are answered as without, if the clock does not go backwards and
bytes are not drawn again, but for the refusals of responses with a challenge that is too old. -/
theorem C95_repaired_replies {app : App} {evs : List Event} {e : Event}
    (hc : ClockForward (evs ++ [e])) (hr : NotDrawnAgain (evs ++ [e])) :
    sweptReply app evs e = reply app evs e ∨
    (∃ f t, (e = .registrationResponse f t ∨ e = .authenticationResponse f t) ∧
      (∃ cid n pre e' ch t' name, f.challengeID = some cid ∧ app.rowId cid = some n ∧
        Occurs evs pre e' ∧ Issues app pre e' n ch t' name ∧ t - t' > 60000)) ∧
    sweptReply app evs e = .text "Could not find challenge matching given id" 400 ∧
    (reply app evs e = .text "Timeout" 408 ∨ reply app evs e = .text "Invalid username" 400) := by
  rcases (sweptRun_step (app := app) hc hr).2.2 with h | ⟨⟨f, t, he, cid, ch, h1, h2, h3, h4⟩, h5, h6⟩
  · exact Or.inl h
  · right
    obtain ⟨pre, e', u, h7, -, -, h8⟩ := (inv_run app evs).challenges ch h2
    refine ⟨⟨f, t, he, cid, ch.id, pre, e', _, _, _, h1, h3, h7, h8, h4⟩, h5, ?_⟩
    cases hx : reply app evs e <;> rw [hx] at h6 <;> cases h6
    · exact Or.inl rfl
    · exact Or.inr rfl

/-- C95: with sweeping, the same responses succeed. -/
theorem C95_repaired_success {app : App} {evs : List Event} {e : Event}
    (hc : ClockForward (evs ++ [e])) (hr : NotDrawnAgain (evs ++ [e])) :
    sweptReply app evs e = success ↔ reply app evs e = success := by
  rcases C95_repaired_replies (app := app) hc hr with h | ⟨-, h, h' | h'⟩
  · rw [h]
  · rw [h, h']
    simp [success]
  · rw [h, h']
    simp [success]

/-- C95: with sweeping, users and credentials are kept as without. -/
theorem C95_repaired_rows {app : App} {evs : List Event} (hc : ClockForward evs) (hr : NotDrawnAgain evs) :
    (sweptRun app evs).db.users = (run app evs).users ∧
    (sweptRun app evs).db.credentials = (run app evs).credentials := by
  rcases List.eq_nil_or_concat evs with rfl | ⟨l, e, rfl⟩
  · exact ⟨rfl, rfl⟩
  · rw [List.concat_eq_append] at *
    have h := (sweptRun_step (app := app) hc hr).1
    rw [sweptRun_snoc, run_snoc, h]
    exact ⟨rfl, rfl⟩

end WebAuthn.Flask
