import Verif.Props.Restore

/-!
# Backups are put back and the challenges in them no longer taken (C101)
-/

namespace WebAuthn.Flask

open WebAuthn.Spec WebAuthn.Props

/-- The response has a number below the one that is noted. -/
def outdated (app : App) (steps : List Step) (e : Event) : Bool :=
  (numberIn app e).any (· < (markedRun app steps).2)

/-- Where the request number `i` is refused, the tables are put back as they are. -/
def cleanedStep (app : App) (steps : List Step) (i : Nat) : Step → Step
  | .request e => if outdated app (steps.take i) e then .restore i else .request e
  | .restore n => .restore n

/-- The same steps for the application without the check. -/
def cleaned (app : App) (steps : List Step) : List Step := steps.mapIdx (cleanedStep app steps)

section
variable {app : App} {steps : List Step}

theorem cleaned_getElem (i : Nat) : (cleaned app steps)[i]? = steps[i]?.map (cleanedStep app steps i) := by
  rw [cleaned, List.getElem?_mapIdx]

theorem cleanedStep_take {i n : Nat} (h : i < n) (s : Step) :
    cleanedStep app (steps.take n) i s = cleanedStep app steps i s := by
  cases s with
  | request e => simp only [cleanedStep, List.take_take, Nat.min_eq_left h.le]
  | restore m => rfl

theorem cleaned_take (n : Nat) : cleaned app (steps.take n) = (cleaned app steps).take n := by
  apply List.ext_getElem?
  intro i
  rw [cleaned_getElem, List.getElem?_take, List.getElem?_take, cleaned_getElem]
  split
  · next h =>
    congr 1
    funext s
    exact cleanedStep_take h s
  · rfl

theorem cleaned_length : (cleaned app steps).length = steps.length := by simp [cleaned]

theorem cleaned_snoc (s : Step) :
    cleaned app (steps ++ [s]) = cleaned app steps ++ [cleanedStep app steps steps.length s] := by
  have h1 : (cleaned app (steps ++ [s])).take steps.length = cleaned app steps := by
    rw [← cleaned_take, List.take_left]
  have h2 : (cleaned app (steps ++ [s]))[steps.length]? = some (cleanedStep app steps steps.length s) := by
    rw [cleaned_getElem]
    cases s with
    | request e => simp [cleanedStep]
    | restore n => simp [cleanedStep]
  obtain ⟨hl, h2⟩ := List.getElem?_eq_some_iff.mp h2
  rw [← List.take_append_drop steps.length (cleaned app (steps ++ [s])), h1, List.drop_eq_getElem_cons hl, h2,
    List.drop_eq_nil_of_le (by rw [cleaned_length, List.length_append]; simp)]

theorem markedRun_request (e : Event) :
    markedRun app (steps ++ [.request e]) = (markedStep app e (markedRun app steps)).2 := latest_request _ _

theorem markedRun_restore (n : Nat) : markedRun app (steps ++ [.restore n]) =
    ((markedRun app (steps.take n)).1, (markedRun app (steps.take n)).1.challenges.length + 1) :=
  latest_restore _ _

theorem markedStep_eq (e : Event) : markedStep app e (markedRun app steps) =
    if outdated app steps e then (.text "Challenge from before the restoration" 400, markedRun app steps)
    else ((step app e (markedRun app steps).1).1, (step app e (markedRun app steps).1).2,
      (markedRun app steps).2) := rfl

/-- The tables are those of the application without the check after the cleaned steps. -/
theorem markedRun_cleaned (app : App) (steps : List Step) :
    (markedRun app steps).1 = restoredRun app (cleaned app steps) := by
  induction steps using step_induction with
  | nil => rfl
  | request steps e ih =>
    rw [cleaned_snoc, markedRun_request, markedStep_eq, cleanedStep, List.take_length]
    split
    · rw [restoredRun, latest_restore, ← cleaned_length (app := app), List.take_length]
      exact ih
    · rw [restoredRun, latest_request]
      show (step app e _).2 = (step app e (restoredRun app (cleaned app steps))).2
      rw [ih]
  | restore steps n ih =>
    rw [cleaned_snoc, markedRun_restore, cleanedStep, restoredRun, latest_restore, ← cleaned_take]
    exact ih

theorem markedReply_eq (e : Event) : markedReply app steps e =
    if outdated app steps e then .text "Challenge from before the restoration" 400
    else restoredReply app (cleaned app steps) e := by
  rw [markedReply, markedStep_eq, markedRun_cleaned, restoredReply]
  split <;> rfl

theorem marked_success {e : Event} (h : markedReply app steps e = success) :
    outdated app steps e = false ∧ restoredReply app (cleaned app steps) e = success := by
  rw [markedReply_eq] at h
  split at h
  · simp [success] at h
  · next hn => exact ⟨by simpa using hn, h⟩

theorem cleaned_request {i : Nat} {e : Event} : RequestAt (cleaned app steps) i e ↔
    RequestAt steps i e ∧ outdated app (steps.take i) e = false := by
  rw [RequestAt, cleaned_getElem, Option.map_eq_some_iff]
  constructor
  · rintro ⟨s, h1, h2⟩
    cases s with
    | restore n => simp [cleanedStep] at h2
    | request e' =>
      rw [cleanedStep] at h2
      split at h2
      · simp at h2
      · next hn =>
        cases h2
        exact ⟨h1, by simpa using hn⟩
  · rintro ⟨h1, h2⟩
    exact ⟨_, h1, by simp [cleanedStep, h2]⟩

theorem cleaned_restore {q n : Nat} (h : (cleaned app steps)[q]? = some (.restore n)) (hn : n ≠ q) :
    steps[q]? = some (.restore n) := by
  rw [cleaned_getElem, Option.map_eq_some_iff] at h
  obtain ⟨s, h1, h2⟩ := h
  cases s with
  | restore m =>
    cases h2
    exact h1
  | request e' =>
    rw [cleanedStep] at h2
    split at h2
    · cases h2
      exact absurd rfl hn
    · cases h2

theorem cleaned_stands {i : Nat} : Stands (cleaned app steps) i ↔
    Stands steps i ∧ ∃ e, RequestAt steps i e ∧ outdated app (steps.take i) e = false := by
  constructor
  · intro h
    refine ⟨?_, ?_⟩
    · induction steps using step_induction with
      | nil => exact h
      | request steps e ih =>
        rw [cleaned_snoc, cleanedStep, List.take_length] at h
        split at h
        · rw [stands_known, known_restore, ← cleaned_length (app := app), List.take_length, ← stands_known] at h
          exact .later _ _ _ (ih h)
        · rw [stands_known, known_request] at h
          obtain ⟨e', h⟩ := h
          rcases List.mem_append.mp h with h | h
          · exact .later _ _ _ (ih (stands_known.mpr ⟨e', h⟩))
          · obtain ⟨rfl, rfl⟩ := Prod.mk.inj (List.mem_singleton.mp h)
            rw [cleaned_length]
            exact .now _ _
      | restore steps n ih =>
        rw [cleaned_snoc, cleanedStep, stands_known, known_restore, ← stands_known, ← cleaned_take] at h
        exact .restored _ _ _ (ih h)
    · obtain ⟨e, he⟩ := stands_known.mp h
      exact ⟨e, cleaned_request.mp (known_mem.mp he).2⟩
  · rintro ⟨h, e, h1, h2⟩
    induction h with
    | now steps a =>
      rw [cleaned_snoc, cleanedStep, List.take_length]
      simp only [RequestAt, List.getElem?_append_right le_rfl, Nat.sub_self, List.getElem?_cons_zero,
        Option.some.injEq, Step.request.injEq] at h1
      subst h1
      rw [List.take_left] at h2
      simp only [h2, Bool.false_eq_true, if_false]
      rw [← cleaned_length (app := app)]
      exact .now _ _
    | later steps a i hi ih =>
      have hl := stands_lt hi
      rw [RequestAt, List.getElem?_append_left hl] at h1
      rw [List.take_append_of_le_length hl.le] at h2
      have := ih h1 h2
      rw [cleaned_snoc, cleanedStep, List.take_length]
      split
      · have h3 := Stands.restored (cleaned app steps) steps.length i
        rw [← cleaned_length (app := app), List.take_length] at h3
        rw [← cleaned_length (app := app)]
        exact h3 this
      · exact .later _ _ _ this
    | restored steps n i hi ih =>
      have hl := stands_lt hi
      rw [List.length_take] at hl
      rw [RequestAt, List.getElem?_append_left (by omega)] at h1
      rw [List.take_append_of_le_length (by omega)] at h2
      rw [cleaned_snoc, cleanedStep]
      refine .restored _ _ _ ?_
      rw [← cleaned_take]
      refine ih ?_ ?_
      · rw [RequestAt, List.getElem?_take, if_pos (by omega)]
        exact h1
      · rw [List.take_take, Nat.min_eq_left (by omega)]
        exact h2

theorem requests_outdated {e : Event} {ch : Bytes} {t : Int} (h : asked e = some (ch, t)) :
    outdated app steps e = false := by
  cases e with
  | registrationRequest => rfl
  | authenticationRequest => rfl
  | registrationResponse => simp [asked] at h
  | authenticationResponse => simp [asked] at h

theorem marked_registersAt {i : Nat} {id : Bytes} {name : String} {k : CPK} :
    RegistersAt (markedReply app) app steps i id name k ↔
      RegistersAt (restoredReply app) app (cleaned app steps) i id name k := by
  constructor
  · rintro ⟨e, h1, f, t, n, c, cdj, ob, o, raw, acd, rfl, h2, h3⟩
    obtain ⟨h4, h5⟩ := marked_success h2
    rw [cleaned_take] at h5
    exact ⟨_, cleaned_request.mpr ⟨h1, h4⟩, f, t, n, c, cdj, ob, o, raw, acd, rfl, h5, h3⟩
  · rintro ⟨e, h1, f, t, n, c, cdj, ob, o, raw, acd, rfl, h2, h3⟩
    obtain ⟨h1, h4⟩ := cleaned_request.mp h1
    refine ⟨_, h1, f, t, n, c, cdj, ob, o, raw, acd, rfl, ?_, h3⟩
    dsimp only [replyAt] at h2 ⊢
    rw [markedReply_eq, h4, cleaned_take]
    simpa using h2

theorem marked_issuesAt {i n : Nat} {ch : Bytes} {t : Int} {name : String} :
    IssuesAt (markedReply app) steps i n ch t name ↔
      IssuesAt (restoredReply app) (cleaned app steps) i n ch t name := by
  constructor
  · rintro ⟨e, h1, ⟨key, v, h2⟩, h3⟩
    have ho : ∀ steps', outdated app steps' e = false := fun _ => by
      rcases h3 with ⟨_, rfl⟩ | rfl <;> rfl
    dsimp only [replyAt] at h2
    rw [markedReply_eq, ho, cleaned_take] at h2
    exact ⟨e, cleaned_request.mpr ⟨h1, ho _⟩, ⟨key, v, by simpa using h2⟩, h3⟩
  · rintro ⟨e, h1, ⟨key, v, h2⟩, h3⟩
    have ho : ∀ steps', outdated app steps' e = false := fun _ => by
      rcases h3 with ⟨_, rfl⟩ | rfl <;> rfl
    obtain ⟨h1, -⟩ := cleaned_request.mp h1
    refine ⟨e, h1, ⟨key, v, ?_⟩, h3⟩
    dsimp only [replyAt] at h2 ⊢
    rw [markedReply_eq, ho, cleaned_take]
    simpa using h2

theorem marked_keyLoginAt {i : Nat} {k : CPK} {c : Credential} :
    KeyLoginAt (markedReply app) app steps k c i ↔
      KeyLoginAt (restoredReply app) app (cleaned app steps) k c i := by
  constructor
  · rintro ⟨f, t, n, name, j, name', h1, h2, h3, h4, h5⟩
    obtain ⟨h6, h7⟩ := marked_success h2
    obtain ⟨e, h8, -⟩ := id h5
    have hj := stands_lt h4
    rw [List.length_take] at hj
    have h9 := cleaned_request.mp (marked_registersAt.mp h5).choose_spec.1
    rw [cleaned_take] at h7
    refine ⟨f, t, n, name, j, name', cleaned_request.mpr ⟨h1, h6⟩, h7, h3, ?_, marked_registersAt.mp h5⟩
    rw [← cleaned_take, cleaned_stands]
    refine ⟨h4, _, (requestAt_take (by omega)).mpr h9.1, ?_⟩
    rw [List.take_take, Nat.min_eq_left (by omega)]
    exact h9.2
  · rintro ⟨f, t, n, name, j, name', h1, h2, h3, h4, h5⟩
    obtain ⟨h1, h6⟩ := cleaned_request.mp h1
    rw [← cleaned_take] at h4
    refine ⟨f, t, n, name, j, name', h1, ?_, h3, (cleaned_stands.mp h4).1, marked_registersAt.mpr h5⟩
    rw [markedReply_eq, h6, cleaned_take]
    simpa using h2

/-- A challenge whose issue stands is one of those in the tables. -/
theorem issued_number {p n : Nat} {ch : Bytes} {t : Int} {name : String} (hs : Stands steps p)
    (h : IssuesAt (restoredReply app) steps p n ch t name) : n ≤ (restoredRun app steps).challenges.length := by
  obtain ⟨e, h1, h2⟩ := issuesAt_iff.mp h
  obtain ⟨u, -, -, hm⟩ := issued_row (known_occurs hs h1) h2
  rw [← restoredRun_known] at hm
  obtain ⟨i, hi⟩ := List.mem_iff_getElem?.mp hm
  have h3 := (inv_run app ((known steps).map Prod.snd)).challengeIds i _ (by rw [← restoredRun_known]; exact hi)
  have := (List.getElem?_eq_some_iff.mp hi).1
  dsimp only at h3
  omega

/-- The number that is noted is greater than those of the challenges from before the last restoration. -/
theorem noted {p n q m : Nat} {ch : Bytes} {t : Int} {name : String} (hs : Stands (cleaned app steps) p)
    (h : IssuesAt (restoredReply app) (cleaned app steps) p n ch t name) (hpq : p < q)
    (hq : steps[q]? = some (.restore m)) : n < (markedRun app steps).2 := by
  induction steps using step_induction with
  | nil => simp at hq
  | request steps e ih =>
    have hql : q < steps.length := by
      have h1 := (List.getElem?_eq_some_iff.mp hq).1
      rw [List.length_append, List.length_singleton] at h1
      rcases Nat.lt_or_ge q steps.length with h2 | h2
      · exact h2
      · obtain rfl : q = steps.length := by omega
        simp at hq
    have hpl : p < (cleaned app steps).length := by
      rw [cleaned_length]
      omega
    rw [List.getElem?_append_left hql] at hq
    rw [markedRun_request, markedStep_eq]
    have h1 : IssuesAt (restoredReply app) (cleaned app steps) p n ch t name := by
      have h1 := (issuesAt_take (j := steps.length) (by omega)).mpr h
      rwa [← cleaned_take, List.take_left] at h1
    have h2 : Stands (cleaned app steps) p := by
      obtain ⟨g1, e', g2, g3⟩ := cleaned_stands.mp hs
      rw [RequestAt, List.getElem?_append_left (by omega)] at g2
      rw [List.take_append_of_le_length (by omega)] at g3
      refine cleaned_stands.mpr ⟨?_, e', g2, g3⟩
      rw [stands_known, known_request] at g1
      obtain ⟨e1, g1⟩ := g1
      rcases List.mem_append.mp g1 with g1 | g1
      · exact stands_known.mpr ⟨e1, g1⟩
      · have := (Prod.mk.inj (List.mem_singleton.mp g1)).1
        omega
    have := ih h2 h1 hq
    split <;> exact this
  | restore steps k ih =>
    rw [markedRun_restore]
    have h1 : Stands (cleaned app (steps.take k)) p := by
      rw [cleaned_snoc, cleanedStep, stands_known, known_restore, ← stands_known, ← cleaned_take] at hs
      exact hs
    have hl := stands_lt h1
    rw [cleaned_length, List.length_take] at hl
    have h2 : IssuesAt (restoredReply app) (cleaned app (steps.take k)) p n ch t name := by
      have h2 := (issuesAt_take (j := min k steps.length) (by omega)).mpr h
      rw [← cleaned_take, List.take_append_of_le_length (by omega), ← List.take_take, List.take_length] at h2
      exact h2
    have := issued_number h1 h2
    rw [← markedRun_cleaned] at this
    dsimp only
    omega

theorem number_in {f : Form} {n : Nat} {c : Credential} {name : String} (h : Submits app f n c name) (t : Int) :
    numberIn app (.registrationResponse f t) = some n ∧ numberIn app (.authenticationResponse f t) = some n := by
  have h := submission_iff.mpr h
  unfold submission at h
  constructor <;>
  · simp only [numberIn]
    split at h
    · next hp =>
      rw [hp]
      obtain ⟨m, h1, h2⟩ := Option.map_eq_some_iff.mp h
      cases h2
      exact h1
    · simp at h

end

/-- C101: where responses to the challenges in a copy are refused, one approval is good for one
login, whenever copies are put back. -/
theorem C101_marked_one_login (app : App) (codec : CodecLaws app.env) (json : JsonLaw app.env) :
    OneEachRestored (markedReply app) app fun _ => True := by
  intro steps k acts id holder drawn _
  have key : KeyLoginAt (markedReply app) app steps k = KeyLoginAt (restoredReply app) app (cleaned app steps) k :=
    funext fun c => funext fun i => propext marked_keyLoginAt
  rw [key]
  refine one_login codec json (holder_mono holder ?_) ?_ ?_
  · rintro cdj raw sig ⟨f, t, n, c, name, handle, hm, h⟩
    refine ⟨f, t, n, c, name, handle, ?_, h⟩
    obtain ⟨s, h1, h2⟩ := List.mem_filterMap.mp hm
    obtain ⟨i, h1⟩ := List.mem_iff_getElem?.mp h1
    cases s with
    | restore => cases h2
    | request e =>
      cases h2
      exact requestAt_mem (cleaned_request.mp h1).1
  · intro i j e e' ch t t' hi hj
    exact notDrawnAgain_at drawn (cleaned_request.mp hi).1 (cleaned_request.mp hj).1
  · intro j p f t n c name ch t' name' q m hj hf hp ht hst hq hm hqj hs
    obtain ⟨-, ho⟩ := cleaned_request.mp hj
    have hpm := stands_lt hs
    rw [List.length_take, List.length_take] at hpm
    rw [← cleaned_take] at hst
    have hp' := (issuesAt_take (j := j) (by omega)).mpr hp
    rw [← cleaned_take] at hp'
    have hq' := cleaned_restore hq (by omega)
    have := noted hst hp' (q := q) (by omega) (by rw [List.getElem?_take, if_pos hqj]; exact hq')
    rw [outdated, (number_in hf t).2] at ho
    simp at ho
    omega

/-- Numbers are given one after the other. -/
theorem issues_number {app : App} {pre : List Event} {e : Event} {n : Nat} {ch : Bytes} {t : Int}
    {name : String} (h : Issues app pre e n ch t name) : n = (run app pre).challenges.length + 1 := by
  have intEq : ∀ {a b : Nat} {k k' : String} {v v' : PyVal},
      Reply.json (.dict [(.str "challengeID", .int a), (.str k, v)]) =
        .json (.dict [(.str "challengeID", .int b), (.str k', v')]) → b = a := by
    intro a b k k' v v' h
    simp only [Reply.json.injEq, PyVal.dict.injEq, List.cons.injEq, Prod.mk.injEq,
      PyVal.int.injEq] at h
    omega
  obtain ⟨⟨key, v, hr⟩, ⟨hd, rfl⟩ | rfl⟩ := h
  · have hr : (registrationRequest (some name) hd ch t (run app pre)).1 = _ := hr
    have main : ∀ (u : User) (db : Db), findOrAddUser (run app pre) name hd = (.ok u, db) →
        db.challenges = (run app pre).challenges → n = (run app pre).challenges.length + 1 := by
      intro u db hf hc
      rcases addChallenge_cases db ch t u.id with ha | ⟨-, ha⟩
      · simp only [registrationRequest, hf, ha] at hr
        cases hr
      · obtain ⟨w, hw, -⟩ := creation_reply (db.challenges.length + 1)
          { name := name, id := u.handle, displayName := name } ch
        simp only [registrationRequest, hf, ha] at hr
        rw [hw] at hr
        rw [← hc]
        exact intEq hr
    rcases findOrAddUser_cases (run app pre) name hd with ⟨u, hu, hn, hf⟩ | hf | ⟨-, hf⟩
    · exact main u _ hf rfl
    · simp only [registrationRequest, hf] at hr
      cases hr
    · exact main _ _ hf rfl
  · have hr : (authenticationRequest (some name) ch t (run app pre)).1 = _ := hr
    cases hu : (run app pre).userNamed name with
    | none =>
      simp only [authenticationRequest, hu] at hr
      cases hr
    | some u =>
      rcases addChallenge_cases (run app pre) ch t u.id with ha | ⟨-, ha⟩
      · simp only [authenticationRequest, hu, ha] at hr
        cases hr
      · obtain ⟨w, hw, -⟩ := request_reply ((run app pre).challenges.length + 1)
          ((run app pre).credentials.filter fun c => c.userId == u.id) ch
        simp only [authenticationRequest, hu, ha] at hr
        rw [hw] at hr
        exact intEq hr

/-- What is noted is at most the number of the next challenge. -/
theorem noted_le (app : App) (steps : List Step) :
    (markedRun app steps).2 ≤ (markedRun app steps).1.challenges.length + 1 := by
  induction steps using step_induction with
  | nil => exact Nat.zero_le _
  | request steps e ih =>
    rw [markedRun_request, markedStep_eq]
    split
    · exact ih
    · dsimp only
      rw [markedRun_cleaned, restoredRun_known] at ih ⊢
      obtain ⟨-, cs, h, -⟩ := run_prefix app ((known (cleaned app steps)).map Prod.snd) [e]
      rw [run_snoc] at h
      rw [h, List.length_append]
      omega
  | restore steps n ih =>
    rw [markedRun_restore]

/-- Without a restoration nothing new is noted. -/
theorem noted_same (app : App) {steps : List Step} {p : Nat} (h : ∀ q m, p ≤ q → steps[q]? ≠ some (.restore m)) :
    (markedRun app steps).2 = (markedRun app (steps.take p)).2 := by
  induction steps using List.reverseRecOn with
  | nil => rw [List.take_nil]
  | append_singleton l s ih =>
    rcases Nat.lt_or_ge l.length p with hp | hp
    · rw [List.take_of_length_le (by rw [List.length_append]; exact hp)]
    · have h1 := ih fun q m hq hr => h q m hq (by
        rw [List.getElem?_append_left (List.getElem?_eq_some_iff.mp hr).1]
        exact hr)
      rw [List.take_append_of_le_length hp, ← h1]
      cases s with
      | restore n => exact absurd (by simp) (h l.length n hp)
      | request e =>
        rw [markedRun_request, markedStep_eq]
        split <;> rfl

/-- Before the first restoration nothing is refused. -/
theorem cleaned_same (app : App) {steps : List Step} (h : ∀ (q m : Nat), steps[q]? ≠ some (.restore m)) :
    cleaned app steps = steps := by
  induction steps using List.reverseRecOn with
  | nil => rfl
  | append_singleton l s ih =>
    have h' : ∀ (q m : Nat), l[q]? ≠ some (.restore m) := fun q m hr => h q m (by
      rw [List.getElem?_append_left (List.getElem?_eq_some_iff.mp hr).1]
      exact hr)
    rw [cleaned_snoc, ih h']
    cases s with
    | restore n => exact absurd (by simp) (h l.length n)
    | request e =>
      have h0 := noted_same app (p := 0) fun q m _ => h' q m
      rw [List.take_zero] at h0
      rw [cleanedStep, List.take_length, outdated, h0]
      cases numberIn app e <;> rfl

/-- Challenges that were issued since the last restoration are not outdated. -/
theorem not_outdated {app : App} {steps : List Step} {e : Event} (h : SinceRestored (markedReply app) app steps e) :
    outdated app steps e = false := by
  have key : ∀ f t, (e = .registrationResponse f t ∨ e = .authenticationResponse f t) →
      outdated app steps e = false := by
    intro f t he
    have hn : numberIn app e = (submission app f).map fun x => x.1 := by
      rcases he with rfl | rfl <;>
      · simp only [numberIn, submission]
        cases parseForm app.env f with
        | error => rfl
        | ok x => simp [Function.comp_def]
    rw [outdated, hn]
    cases hs : submission app f with
    | none => rfl
    | some x =>
      obtain ⟨n, c, name⟩ := x
      obtain ⟨p, ch, t', name', h1, h2⟩ := h f t n c name he (submission_iff.mp hs)
      obtain ⟨e', h3, h4⟩ := issuesAt_iff.mp (marked_issuesAt.mp h1)
      have h5 := issues_number h4
      rw [← restoredRun_known, ← cleaned_take, ← markedRun_cleaned] at h5
      have h6 := noted_le app (steps.take p)
      rw [← noted_same app (steps := steps) (p := p)] at h6
      · simp only [Option.map_some, Option.any_some, decide_eq_false_iff_not]
        omega
      · intro q m hq hr
        rcases Nat.lt_or_eq_of_le hq with hq | rfl
        · exact h2 q m hq hr
        · have := (cleaned_request.mp h3).1
          rw [RequestAt, hr] at this
          cases this
  cases e with
  | registrationRequest => rfl
  | authenticationRequest => rfl
  | registrationResponse f t => exact key f t (Or.inl rfl)
  | authenticationResponse f t => exact key f t (Or.inr rfl)

/-- C101: who sends no response to a challenge from before the last restoration is answered as if
what does not stand, and what was refused for that reason, had never happened. -/
theorem C101_marked_as_if (app : App) (steps : List Step) :
    ∃ l : List (Nat × Event), (l.Pairwise fun x y => x.1 < y.1) ∧
      (∀ i e, (i, e) ∈ l → Stands steps i ∧ RequestAt steps i e) ∧
      (∀ i e, Stands steps i → RequestAt steps i e → SinceRestored (markedReply app) app (steps.take i) e →
        (i, e) ∈ l) ∧
      ∀ e, SinceRestored (markedReply app) app steps e →
        markedReply app steps e = reply app (l.map Prod.snd) e := by
  refine ⟨known (cleaned app steps), known_sorted _, ?_, ?_, ?_⟩
  · intro i e h
    obtain ⟨h1, h2⟩ := known_mem.mp h
    exact ⟨(cleaned_stands.mp h1).1, (cleaned_request.mp h2).1⟩
  · intro i e h1 h2 h3
    have ho := not_outdated h3
    exact known_mem.mpr ⟨cleaned_stands.mpr ⟨h1, e, h2, ho⟩, cleaned_request.mpr ⟨h2, ho⟩⟩
  · intro e h
    rw [markedReply_eq, not_outdated h]
    exact restoredReply_known app _ e

/-- C101: responses to challenges from before are refused, and leave no trace. -/
theorem C101_marked_refused {app : App} {steps : List Step} {p n q m : Nat} {ch : Bytes} {t t' : Int}
    {name name' : String} {f : Form} {c : Credential} {e : Event} (hp : Stands steps p)
    (h : IssuesAt (markedReply app) steps p n ch t' name') (hpq : p < q) (hq : steps[q]? = some (.restore m))
    (he : e = .registrationResponse f t ∨ e = .authenticationResponse f t) (hf : Submits app f n c name) :
    markedReply app steps e = .text "Challenge from before the restoration" 400 ∧
      ∀ e', markedReply app (steps ++ [.request e]) e' = markedReply app steps e' := by
  have h1 := marked_issuesAt.mp h
  obtain ⟨e1, h2, -⟩ := id h1
  have h3 := noted (cleaned_stands.mpr ⟨hp, e1, cleaned_request.mp h2⟩) h1 hpq hq
  have ho : outdated app steps e = true := by
    rw [outdated]
    rcases he with rfl | rfl
    · rw [(number_in hf t).1]
      simpa using h3
    · rw [(number_in hf t).2]
      simpa using h3
  refine ⟨by rw [markedReply_eq, ho]; rfl, fun e' => ?_⟩
  rw [markedReply, markedRun_request, markedStep_eq, ho]
  rfl

end WebAuthn.Flask
