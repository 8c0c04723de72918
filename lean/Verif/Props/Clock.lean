import Verif.Spec.Clock
import Verif.Props.Swept
import Verif.Props.FlaskOutcome

/-!
# Of the clock only the ages of challenges matter (C104)
-/

namespace WebAuthn.Flask

open WebAuthn WebAuthn.Spec WebAuthn.Props

variable {db : Db}

/-- A row but for its time. -/
def untimed (c : Challenge) : Nat × Bytes × Nat := (c.id, c.request, c.userId)

theorem retimed_iff {db' : Db} : Retimed db db' ↔
    ∃ cs, db' = db.withChallenges cs ∧ cs.map untimed = db.challenges.map untimed := by
  constructor
  · rintro ⟨h1, h2, h3⟩
    exact ⟨db'.challenges, by rcases db' with ⟨a, b, c⟩; cases h1; cases h2; rfl, h3⟩
  · rintro ⟨cs, rfl, h⟩
    exact ⟨rfl, rfl, h⟩

theorem challenge_untimed (db : Db) (n : Option Nat) :
    (db.challenge n).map untimed = n.bind fun n => (db.challenges.map untimed).find? fun x => x.1 == n := by
  cases n with
  | none => rfl
  | some n =>
    simp only [Db.challenge, Option.bind_some, List.find?_map]
    rfl

theorem addChallenge_untimed {cs : List Challenge} (h : cs.map untimed = db.challenges.map untimed)
    (ch : Bytes) (t t' : Int) (n : Nat) :
    ∃ cs', (db.withChallenges cs).addChallenge ch t' n =
        ((db.addChallenge ch t n).1, (db.addChallenge ch t n).2.withChallenges cs') ∧
      cs'.map untimed = (db.addChallenge ch t n).2.challenges.map untimed := by
  have ha : cs.any (fun c => c.request == ch) = db.challenges.any fun c => c.request == ch := by
    have : ∀ l : List Challenge, l.any (fun c => c.request == ch) =
        (l.map untimed).any fun x => x.2.1 == ch := by
      intro l
      rw [List.any_map]
      rfl
    rw [this, this, h]
  have hl : cs.length = db.challenges.length := by
    simpa using congrArg List.length h
  have hw : (db.withChallenges cs).challenges = cs := rfl
  unfold Db.addChallenge
  rw [hw, ha]
  split
  · exact ⟨cs, rfl, h⟩
  · refine ⟨cs ++ [⟨db.challenges.length + 1, ch, t', n⟩], ?_, ?_⟩
    · rw [hl]
      rfl
    · simp only [List.map_append, h]
      rfl

theorem findOrAddUser_challenges (db : Db) (cs : List Challenge) (name : String) (h : Bytes) :
    findOrAddUser (db.withChallenges cs) name h =
      ((findOrAddUser db name h).1, (findOrAddUser db name h).2.withChallenges cs) := by
  unfold findOrAddUser
  have : (db.withChallenges cs).userNamed name = db.userNamed name := rfl
  rw [this]
  cases db.userNamed name with
  | some u => rfl
  | none =>
    simp only [Db.addUser]
    have : (db.withChallenges cs).users = db.users := rfl
    rw [this]
    split <;> rfl

theorem findOrAddUser_same (db : Db) (name : String) (h : Bytes) :
    (findOrAddUser db name h).2.challenges = db.challenges := by
  unfold findOrAddUser
  cases db.userNamed name with
  | some u => rfl
  | none =>
    simp only [Db.addUser]
    split <;> rfl

theorem registrationRequest_retimed {cs : List Challenge}
    (h : cs.map untimed = db.challenges.map untimed) (name : Option String) (hd ch : Bytes) (t t' : Int) :
    (registrationRequest name hd ch t' (db.withChallenges cs)).1 =
        (registrationRequest name hd ch t db).1 ∧
      Retimed (registrationRequest name hd ch t db).2
        (registrationRequest name hd ch t' (db.withChallenges cs)).2 := by
  cases name with
  | none => exact ⟨rfl, retimed_iff.mpr ⟨cs, rfl, h⟩⟩
  | some name =>
    simp only [registrationRequest, findOrAddUser_challenges]
    have hk := findOrAddUser_same db name hd
    revert hk
    generalize findOrAddUser db name hd = x
    intro hk
    rcases x with ⟨e | u, db1⟩
    · exact ⟨rfl, retimed_iff.mpr ⟨cs, rfl, h.trans (congrArg _ hk.symm)⟩⟩
    · simp only
      obtain ⟨cs', h1, h2⟩ := addChallenge_untimed (db := db1) (h.trans (congrArg _ hk.symm)) ch t t' u.id
      rw [h1]
      revert h2
      generalize db1.addChallenge ch t u.id = y
      intro h2
      rcases y with ⟨e | n, db2⟩
      · exact ⟨rfl, retimed_iff.mpr ⟨cs', rfl, h2⟩⟩
      · exact ⟨rfl, retimed_iff.mpr ⟨cs', rfl, h2⟩⟩

theorem authenticationRequest_retimed {cs : List Challenge}
    (h : cs.map untimed = db.challenges.map untimed) (name : Option String) (ch : Bytes) (t t' : Int) :
    (authenticationRequest name ch t' (db.withChallenges cs)).1 =
        (authenticationRequest name ch t db).1 ∧
      Retimed (authenticationRequest name ch t db).2
        (authenticationRequest name ch t' (db.withChallenges cs)).2 := by
  cases name with
  | none => exact ⟨rfl, retimed_iff.mpr ⟨cs, rfl, h⟩⟩
  | some name =>
    simp only [authenticationRequest]
    have hu : (db.withChallenges cs).userNamed name = db.userNamed name := rfl
    rw [hu]
    cases db.userNamed name with
    | none => exact ⟨rfl, retimed_iff.mpr ⟨cs, rfl, h⟩⟩
    | some u =>
      simp only
      obtain ⟨cs', h1, h2⟩ := addChallenge_untimed h ch t t' u.id
      rw [h1]
      revert h2
      generalize db.addChallenge ch t u.id = y
      intro h2
      rcases y with ⟨e | n, db2⟩
      · exact ⟨rfl, retimed_iff.mpr ⟨cs', rfl, h2⟩⟩
      · exact ⟨rfl, retimed_iff.mpr ⟨cs', rfl, h2⟩⟩

/-! ## Responses -/

theorem mem_tooOld (hk : Keyed db) {c : Challenge} (hc : c ∈ db.challenges) (t : Int) :
    c.id ∈ tooOld db t ↔ 60000 < t - c.timestamp := by
  simp only [tooOld, List.mem_map, List.mem_filter, decide_eq_true_eq]
  constructor
  · rintro ⟨d, ⟨hd, h⟩, e⟩
    obtain ⟨i, hi⟩ := List.mem_iff_getElem?.mp hc
    obtain ⟨j, hj⟩ := List.mem_iff_getElem?.mp hd
    have h1 := hk.challengeIds i c hi
    have h2 := hk.challengeIds j d hj
    have : i = j := by omega
    subst this
    rw [hi] at hj
    cases hj
    exact h
  · exact fun h => ⟨c, ⟨hc, h⟩, rfl⟩

theorem challenge_mem {n : Option Nat} {ch : Challenge} (h : db.challenge n = some ch) :
    ch ∈ db.challenges := by
  cases n with
  | none => cases h
  | some n => exact List.mem_of_find?_eq_some h

theorem readResponse_retimed {cs : List Challenge} (h : cs.map untimed = db.challenges.map untimed)
    (hk : Keyed db) (hk' : Keyed (db.withChallenges cs)) {t t' : Int}
    (ha : tooOld db t = tooOld (db.withChallenges cs) t') (app : App) (att : Bool) (f : Form) :
    (∃ r, readResponse app att f t db = .error r ∧
      readResponse app att f t' (db.withChallenges cs) = .error r) ∨
    ∃ c ch ch' u, readResponse app att f t db = .ok (c, ch, u) ∧
      readResponse app att f t' (db.withChallenges cs) = .ok (c, ch', u) ∧ ch.request = ch'.request := by
  unfold readResponse
  cases parseForm app.env f with
  | error e => exact Or.inl (by dsimp only; split <;> exact ⟨_, rfl, rfl⟩)
  | ok x =>
    obtain ⟨cid, c, name⟩ := x
    dsimp only
    split
    · exact Or.inl ⟨_, rfl, rfl⟩
    · have hc : ((db.withChallenges cs).challenge (app.rowId cid)).map untimed =
          (db.challenge (app.rowId cid)).map untimed := by
        rw [challenge_untimed, challenge_untimed]
        have : (db.withChallenges cs).challenges = cs := rfl
        rw [this, h]
      have hu : (db.withChallenges cs).userNamed name = db.userNamed name := rfl
      rw [hu]
      cases h1 : db.challenge (app.rowId cid) with
      | none =>
        rw [h1] at hc
        have : (db.withChallenges cs).challenge (app.rowId cid) = none := by simpa using hc
        rw [this]
        exact Or.inl ⟨_, rfl, rfl⟩
      | some ch =>
        rw [h1] at hc
        obtain ⟨ch', h2, h3⟩ := Option.map_eq_some_iff.mp hc
        rw [h2]
        dsimp only
        cases db.userNamed name with
        | none => exact Or.inl ⟨_, rfl, rfl⟩
        | some u =>
          dsimp only
          have hid : ch'.id = ch.id := congrArg (·.1) h3
          have hreq : ch'.request = ch.request := congrArg (·.2.1) h3
          have m1 : ch ∈ db.challenges := challenge_mem h1
          have m2 : ch' ∈ (db.withChallenges cs).challenges := challenge_mem h2
          have hold : 60000 < t - ch.timestamp ↔ 60000 < t' - ch'.timestamp := by
            rw [← mem_tooOld hk m1, ← mem_tooOld hk' m2, hid, ha]
          have hto : timeout = 60000 := rfl
          by_cases hs : 60000 < t - ch.timestamp
          · left
            exact ⟨_, if_pos hs, if_pos (hold.mp hs)⟩
          · right
            exact ⟨c, ch, ch', u, if_neg hs, if_neg fun h => hs (hold.mpr h), hreq.symm⟩

theorem step_retimed {db db' : Db} (h : Retimed db db') (hk : Keyed db) (hk' : Keyed db') (app : App)
    (e : Event) (t : Int) (ha : tooOld db (timeOf e) = tooOld db' t) :
    (step app (atTime t e) db').1 = (step app e db).1 ∧
      Retimed (step app e db).2 (step app (atTime t e) db').2 := by
  obtain ⟨cs, rfl, hcs⟩ := retimed_iff.mp h
  cases e with
  | registrationRequest n hd c t0 => exact registrationRequest_retimed hcs n hd c t0 t
  | authenticationRequest n c t0 => exact authenticationRequest_retimed hcs n c t0 t
  | registrationResponse f t0 =>
    simp only [step, atTime, registrationResponse]
    rcases readResponse_retimed (t := t0) hcs hk hk' ha app true f with ⟨r, h1, h2⟩ | ⟨c, ch, ch', u, h1, h2, h3⟩
    · rw [h1, h2]
      exact ⟨rfl, h⟩
    · rw [h1, h2]
      have : attestationArgs c ch' u = attestationArgs c ch u := by simp only [attestationArgs, h3]
      simp only [this, handleAttestation_challenges]
      exact ⟨trivial, retimed_iff.mpr ⟨cs, rfl, by rw [hcs, handleAttestation_keeps]⟩⟩
  | authenticationResponse f t0 =>
    simp only [step, atTime, authenticationResponse]
    rcases readResponse_retimed (t := t0) hcs hk hk' ha app false f with ⟨r, h1, h2⟩ | ⟨c, ch, ch', u, h1, h2, h3⟩
    · rw [h1, h2]
      exact ⟨rfl, h⟩
    · rw [h1, h2]
      have : assertionArgs c ch' u = assertionArgs c ch u := by simp only [assertionArgs, h3]
      simp only [this, handleAssertion_challenges]
      exact ⟨trivial, retimed_iff.mpr ⟨cs, rfl, by rw [hcs, handleAssertion_keeps]⟩⟩

/-- **C104** By two clocks that agree on which challenges are too old, whatever else they show, the
application has the same tables but for the times and sends the same replies. -/
theorem C104_ages_only {app : App} {evs evs' : List Event} (h : Agreeing app evs evs') :
    Retimed (run app evs) (run app evs') ∧
    ∀ e t, tooOld (run app evs) (timeOf e) = tooOld (run app evs') t →
      reply app evs' (atTime t e) = reply app evs e := by
  have main : Retimed (run app evs) (run app evs') := by
    induction h with
    | nil => exact ⟨rfl, rfl, rfl⟩
    | snoc evs evs' e t _ ha ih =>
      rw [run_snoc, run_snoc]
      exact (step_retimed ih (C64_consistent_history app _).keyed (C64_consistent_history app _).keyed
        app e t ha).2
  exact ⟨main, fun e t ha => (step_retimed main (C64_consistent_history app _).keyed
    (C64_consistent_history app _).keyed app e t ha).1⟩

/-! ## A clock that is off -/

/-- The tables by a clock that is ahead by `d`. -/
def ahead (d : Int) (db : Db) : Db :=
  { db with challenges := db.challenges.map fun c => { c with timestamp := c.timestamp + d } }

theorem tooOld_ahead (db : Db) (d t : Int) : tooOld (ahead d db) (t + d) = tooOld db t := by
  simp only [tooOld, ahead, List.filter_map, List.map_map]
  congr 1
  refine List.filter_congr fun c _ => ?_
  simp only [Function.comp, decide_eq_decide]
  omega

theorem ahead_of {d : Int} {db db' : Db} (h1 : db'.users = db.users) (h2 : db'.credentials = db.credentials)
    (h3 : db'.challenges = (ahead d db).challenges) : db' = ahead d db := by
  rcases db' with ⟨a, b, c⟩
  cases h1
  cases h2
  cases h3
  rfl

theorem ahead_retimed (d : Int) (db : Db) : Retimed db (ahead d db) :=
  ⟨rfl, rfl, by simp only [ahead, List.map_map]; rfl⟩

theorem step_ahead (app : App) (e : Event) (db : Db) (d : Int) (hk : Keyed db)
    (hk' : Keyed (ahead d db)) :
    (step app (atTime (timeOf e + d) e) (ahead d db)).2 = ahead d (step app e db).2 := by
  have hadd : ∀ (db : Db) (ch : Bytes) (t : Int) (n : Nat), (ahead d db).addChallenge ch (t + d) n =
      ((db.addChallenge ch t n).1, ahead d (db.addChallenge ch t n).2) := by
    intro db ch t n
    unfold Db.addChallenge
    have : (ahead d db).challenges.any (fun c => c.request == ch) =
        db.challenges.any fun c => c.request == ch := by
      simp only [ahead, List.any_map]
      rfl
    rw [this]
    split
    · rfl
    · simp [ahead]
  cases e with
  | registrationRequest n hd c t =>
    cases n with
    | none => rfl
    | some n =>
      simp only [step, atTime, timeOf, registrationRequest]
      have : findOrAddUser (ahead d db) n hd =
          ((findOrAddUser db n hd).1, ahead d (findOrAddUser db n hd).2) := by
        have hk := findOrAddUser_same db n hd
        have := findOrAddUser_challenges db (ahead d db).challenges n hd
        refine this.trans ?_
        congr 1
        simp only [Db.withChallenges, ahead, hk]
      rw [this]
      rcases findOrAddUser db n hd with ⟨e | u, db1⟩
      · rfl
      · simp only [hadd]
        rcases db1.addChallenge c t u.id with ⟨e | i, db2⟩ <;> rfl
  | authenticationRequest n c t =>
    cases n with
    | none => rfl
    | some n =>
      simp only [step, atTime, timeOf, authenticationRequest]
      have : (ahead d db).userNamed n = db.userNamed n := rfl
      rw [this]
      cases db.userNamed n with
      | none => rfl
      | some u =>
        simp only [hadd]
        rcases db.addChallenge c t u.id with ⟨e | i, db2⟩ <;> rfl
  | registrationResponse f t =>
    obtain ⟨h1, h2, -⟩ := (step_retimed (ahead_retimed d db) hk hk' app (.registrationResponse f t) (t + d)
      (tooOld_ahead db d t).symm).2
    exact ahead_of h1 h2 ((response_keeps app _ f (t + d)).1.trans
      (congrArg (List.map _) (response_keeps app db f t).1.symm))
  | authenticationResponse f t =>
    obtain ⟨h1, h2, -⟩ := (step_retimed (ahead_retimed d db) hk hk' app (.authenticationResponse f t) (t + d)
      (tooOld_ahead db d t).symm).2
    exact ahead_of h1 h2 ((response_keeps app _ f (t + d)).2.trans
      (congrArg (List.map _) (response_keeps app db f t).2.symm))

theorem run_ahead (app : App) (d : Int) (evs : List Event) :
    run app (evs.map fun e => atTime (timeOf e + d) e) = ahead d (run app evs) := by
  induction evs using List.reverseRecOn with
  | nil => rfl
  | append_singleton evs e ih =>
    rw [List.map_append, List.map_singleton, run_snoc, run_snoc, ih]
    exact step_ahead app e _ d (C64_consistent_history app _).keyed
      (ih ▸ (C64_consistent_history app _).keyed)

/-- **C104** By a clock that is off, always by the same, the replies are the same. -/
theorem C104_ahead (app : App) (d : Int) (evs : List Event) (e : Event) :
    reply app (evs.map fun e => atTime (timeOf e + d) e) (atTime (timeOf e + d) e) =
      reply app evs e := by
  have main : Agreeing app evs (evs.map fun e => atTime (timeOf e + d) e) := by
    induction evs using List.reverseRecOn with
    | nil => exact .nil
    | append_singleton evs e ih =>
      rw [List.map_append, List.map_singleton]
      exact .snoc _ _ _ _ ih (by rw [run_ahead, tooOld_ahead])
  exact (C104_ages_only main).2 e _ (by rw [run_ahead, tooOld_ahead])

theorem read_earlier {app : App} {K : Response → Prop} {f : Form} {t t' : Int} {c : Credential}
    {ch : Challenge} {u : User} (h : Read app K f t db c ch u) (ht : t' ≤ t) :
    Read app K f t' db c ch u :=
  { h with time := by have := h.time; omega }

/-- **C104** What is accepted would have been accepted at any earlier time. -/
theorem C104_earlier {app : App} {evs : List Event} {f : Form} {t t' : Int} (ht : t' ≤ t) :
    (reply app evs (.registrationResponse f t) = success →
      reply app evs (.registrationResponse f t') = success) ∧
    (reply app evs (.authenticationResponse f t) = success →
      reply app evs (.authenticationResponse f t') = success) := by
  constructor
  · intro h
    have hout := C64_outcome app (C64_consistent_history app evs) (.registrationResponse f t)
    have h : (step app _ (run app evs)).1 = _ := h
    rw [h] at hout
    generalize hr : success = r at hout
    generalize (step app _ (run app evs)).2 = db' at hout
    cases hout with
    | registered _ _ c ch u k key h1 h2 h3 h4 =>
      exact (C64_reply_only (.registered f t' c ch u k key (read_earlier h1 ht) h2 h3 h4)
        (by intro v hv; cases hv)).1
    | registrationUnread _ _ _ hu => cases hu <;> simp [success] at hr
    | registrationRefused _ _ _ _ _ _ _ _ _ _ _ ht => cases ht <;> simp [success] at hr
    | registrationNoKey _ _ _ _ _ _ _ x _ h1 h2 h3 hw ht => cases hw <;> cases ht <;> simp [success] at hr
    | registrationTaken => simp [success] at hr
  · intro h
    have hout := C64_outcome app (C64_consistent_history app evs) (.authenticationResponse f t)
    have h : (step app _ (run app evs)).1 = _ := h
    rw [h] at hout
    generalize hr : success = r at hout
    generalize (step app _ (run app evs)).2 = db' at hout
    cases hout with
    | loggedIn _ _ c ch u row cd user rp ad h1 h2 h3 h4 h5 =>
      exact (C64_reply_only (.loggedIn f t' c ch u row cd user rp ad (read_earlier h1 ht) h2 h3 h4 h5)
        (by intro v hv; cases hv)).1
    | loginUnread _ _ _ hu => cases hu <;> simp [success] at hr
    | loginUnknown => simp [success] at hr
    | loginNoKey _ _ _ _ _ _ _ _ _ _ _ _ _ _ ht => cases ht <;> simp [success] at hr
    | loginRefused _ _ _ _ _ _ _ _ _ _ _ _ _ _ _ _ ht => cases ht <;> simp [success] at hr

theorem unread_timeout {app : App} {K : Response → Prop} {f : Form} {t : Int} {n : Nat}
    {c : Credential} {name : String} {r : Reply} (hs : Submits app f n c name)
    (hr : .text "Timeout" 408 = r) (hu : Unread app K f t db r) :
    ∃ ch ∈ db.challenges, ch.id = n ∧ 60000 < t - ch.timestamp := by
  cases hu with
  | late cid c' ch u h1 h2 h3 h4 h5 h6 =>
    obtain ⟨_, _, e1, -⟩ := h1
    obtain ⟨cid', _, _, e2, e3, -⟩ := hs
    rw [e1] at e2
    cases e2
    rw [h4] at e3
    cases e3
    exact ⟨ch, h3, rfl, h6⟩
  | _ => simp at hr

theorem timeout_old {app : App} {evs : List Event} {e : Event} {f : Form} {t : Int} {n : Nat}
    {c : Credential} {name : String}
    (he : e = .registrationResponse f t ∨ e = .authenticationResponse f t) (hs : Submits app f n c name)
    (h : reply app evs e = .text "Timeout" 408) :
    ∃ ch ∈ (run app evs).challenges, ch.id = n ∧ 60000 < t - ch.timestamp := by
  have hout := C64_outcome app (C64_consistent_history app evs) e
  have h : (step app e (run app evs)).1 = _ := h
  rw [h] at hout
  generalize hr : (.text "Timeout" 408 : Reply) = r at hout
  generalize (step app e (run app evs)).2 = db' at hout
  rcases he with rfl | rfl
  · cases hout with
    | registrationUnread _ _ _ hu => exact unread_timeout hs hr hu
    | registrationRefused _ _ _ _ _ _ _ _ _ _ _ ht => cases ht <;> simp at hr
    | registrationNoKey _ _ _ _ _ _ _ _ _ _ _ _ _ ht => cases ht <;> simp at hr
    | _ => simp at hr
  · cases hout with
    | loginUnread _ _ _ hu => exact unread_timeout hs hr hu
    | loginNoKey _ _ _ _ _ _ _ _ _ _ _ _ _ _ ht => cases ht <;> simp at hr
    | loginRefused _ _ _ _ _ _ _ _ _ _ _ _ _ _ _ _ ht => cases ht <;> simp at hr
    | _ => simp at hr

/-- **C104** While the clock goes forward, a challenge that was found too old stays so. -/
theorem C104_stays_old_partial (app : App) : StaysOld (reply app) app ClockForward := by
  intro pre e mid e' f t t' n c c' name name' hclock he hs h hs'
  obtain ⟨ch, hm, hid, hold⟩ := timeout_old he hs h
  obtain ⟨hrep, f', he', hf'⟩ := hs'
  have hmem : ch ∈ (run app (pre ++ e :: mid)).challenges := by
    obtain ⟨-, cs, h1, -⟩ := run_prefix app pre (e :: mid)
    rw [h1]
    exact List.mem_append_left _ hm
  have hk := (C64_consistent_history app (pre ++ e :: mid)).keyed
  have hnew : t' - ch.timestamp ≤ 60000 := by
    rcases he' with rfl | rfl
    · obtain ⟨n', c2, name2, ch2, _, _, _, _, _, _, h1, h2, h3, h4, -⟩ := registration_success hrep
      obtain ⟨rfl, -, -⟩ := submits_unique hf' h1
      have := (mem_tooOld hk hmem t').not.mp (by
        rw [hid, ← h3, mem_tooOld hk h2]; omega)
      omega
    · obtain ⟨n', c2, name2, ch2, _, _, _, _, _, _, h1, h2, h3, h4, -⟩ := authentication_success hrep
      obtain ⟨rfl, -, -⟩ := submits_unique hf' h1
      have := (mem_tooOld hk hmem t').not.mp (by
        rw [hid, ← h3, mem_tooOld hk h2]; omega)
      omega
  have ht : t ≤ t' := by
    have h1 : At e t := by rcases he with rfl | rfl <;> constructor
    have h2 : At e' t' := by rcases he' with rfl | rfl <;> constructor
    rw [ClockForward, List.append_assoc, List.pairwise_append] at hclock
    have := (List.pairwise_cons.mp hclock.2.1).1 e' (by simp)
    exact this t t' h1 h2
  omega

end WebAuthn.Flask
