import Verif.Spec.FlaskAtomic
import Verif.Props.FlaskThreadsCounter

/-!
# Lemmas about the application repaired for overlapping requests

What it answers, the application of the repository answers when some of the statements
are executed later or not at all (`kept`): the first `SELECT` of a request that is going to
add a user is executed right before the `INSERT`, and a refused `UPDATE` is not executed.
-/

namespace WebAuthn.Flask

open WebAuthn WebAuthn.Spec WebAuthn.Props

/-! ## Requests that add no user -/

/-- The request adds no user from now on. -/
def NoAdd : Task → Prop
  | .done _ => True
  | .userNamed _ k => ∀ x, NoAdd (k x)
  | .userOfHandle _ k => ∀ x, NoAdd (k x)
  | .userOfId _ k => ∀ x, NoAdd (k x)
  | .credential _ k => ∀ x, NoAdd (k x)
  | .credentialsOf _ k => ∀ x, NoAdd (k x)
  | .challenge _ k => ∀ x, NoAdd (k x)
  | .addUser _ _ _ => False
  | .addChallenge _ _ _ k => ∀ x, NoAdd (k x)
  | .addCredential _ k => ∀ x, NoAdd (k x)
  | .setCount _ _ k => NoAdd k

theorem NoAdd.step {t : Task} {db : Db} (h : NoAdd t) : NoAdd (t.step db).1 := by
  cases t with
  | done r => trivial
  | setCount => exact h
  | addUser => exact absurd h id
  | _ => exact h _

theorem NoAdd.atomicStep {t : Task} {db : Db} (h : NoAdd t) : NoAdd (t.atomicStep db).1 := by
  cases t with
  | setCount id n k =>
    simp only [Task.atomicStep]
    by_cases hb : db.below id n = true
    · rw [if_pos hb]
      exact h
    · rw [if_neg hb]
      trivial
  | addUser => exact absurd h id
  | _ => exact h.step

theorem noAdd_creation (name : String) (ch : Bytes) (t : Int) (u : User) :
    NoAdd (creationTask name ch t u) := by
  intro x
  cases x <;> trivial

theorem noAdd_read {app : App} {att : Bool} {f : Form} {now : Int}
    {k : Credential → Challenge → User → Task} (h : ∀ c ch u, NoAdd (k c ch u)) :
    NoAdd (readTask app att f now k) := by
  unfold readTask
  split
  · split <;> trivial
  · split
    · trivial
    · intro ch
      cases ch with
      | none => trivial
      | some ch =>
        intro u
        cases u with
        | none => trivial
        | some u =>
          simp only
          split
          · trivial
          · exact h _ _ _

theorem noAdd_handler (env : Env) (m : String) (p : Prog) : NoAdd (handlerTask env m p) := by
  induction p with
  | done r => trivial
  | read id k ih =>
    simp only [handlerTask]
    intro c
    cases c with
    | none => exact ih _
    | some c =>
      simp only
      cases parseCoseKeyBytes env c.key with
      | error e => exact ih _
      | ok key =>
        intro u
        cases u <;> exact ih _
  | writeAttestation r k ih =>
    unfold handlerTask
    cases r.att.authData.attested with
    | none => exact ih _
    | some acd =>
      intro u
      cases u with
      | none => exact ih _
      | some u =>
        simp only
        cases acd.credentialPublicKey with
        | none => exact ih _
        | some cpk =>
          simp only
          cases coseKey env cpk with
          | error e => exact ih _
          | ok key =>
            intro x
            cases x <;> exact ih _
  | writeAssertion r k ih =>
    simp only [handlerTask]
    intro c
    cases c <;> exact ih _

/-- What follows the `INSERT` of a user. -/
def afterAdd (name : String) (ch : Bytes) (t : Int) : Py User → Task
  | .error e => .done (.crash e)
  | .ok u => creationTask name ch t u

theorem noAdd_after (name : String) (ch : Bytes) (t : Int) (x : Py User) :
    NoAdd (afterAdd name ch t x) := by
  cases x with
  | error e => trivial
  | ok u => exact noAdd_creation _ _ _ _

/-- Only a first request of a user may add a user. -/
theorem noAdd_task (app : App) (e : Event) :
    NoAdd (task app e) ∨ ∃ name h ch t, e = .registrationRequest (some name) h ch t := by
  cases e with
  | registrationRequest name h ch t =>
    cases name with
    | none => exact Or.inl trivial
    | some name => exact Or.inr ⟨_, _, _, _, rfl⟩
  | authenticationRequest name ch t =>
    left
    cases name with
    | none => trivial
    | some name =>
      intro u
      cases u with
      | none => trivial
      | some u =>
        intro rows x
        cases x <;> trivial
  | registrationResponse f t => exact Or.inl (noAdd_read fun _ _ _ => noAdd_handler _ _ _)
  | authenticationResponse f t => exact Or.inl (noAdd_read fun _ _ _ => noAdd_handler _ _ _)

theorem start_some {app : App} {name : String} {h ch : Bytes} {t : Int} {db : Db} {u : User}
    (hu : db.userNamed name = some u) :
    (task app (.registrationRequest (some name) h ch t)).step db = (creationTask name ch t u, db) := by
  simp only [task, registrationRequestTask, Task.step, hu]

theorem start_none {app : App} {name : String} {h ch : Bytes} {t : Int} {db : Db}
    (hu : db.userNamed name = none) :
    (task app (.registrationRequest (some name) h ch t)).step db =
      (.addUser name h (afterAdd name ch t), db) := by
  simp only [task, registrationRequestTask, Task.step, hu]
  rfl

theorem start_atomic {app : App} {name : String} {h ch : Bytes} {t : Int} {db : Db} :
    (task app (.registrationRequest (some name) h ch t)).atomicStep db =
      (task app (.registrationRequest (some name) h ch t)).step db := rfl

/-! ## The statements that are kept -/

section
variable {ι : Type} [DecidableEq ι] {app : App} {reqs : ι → Event} {sched : List ι}

/-- What is executed in place of the next statement of `i`. -/
def emits (s : Server ι) (i : ι) : List ι :=
  match s.tasks i with
  | .done _ => []
  | .addUser name _ _ => if (s.db.userNamed name).isSome then [i] else [i, i]
  | .setCount id n _ => if s.db.below id n then [i] else []
  | t => match (t.step s.db).1 with
    | .addUser _ _ _ => []
    | _ => [i]

/-- What is executed in place of `sched`, from the server `s`. -/
def keptFrom (s : Server ι) : List ι → List ι
  | [] => []
  | i :: l => emits s i ++ keptFrom (s.atomicStep i) l

/-- What is executed in place of `sched`. -/
def keptSched (app : App) (reqs : ι → Event) (sched : List ι) : List ι :=
  keptFrom ⟨fun i => task app (reqs i), {}⟩ sched

theorem keptFrom_append (s : Server ι) (l l' : List ι) :
    keptFrom s (l ++ l') = keptFrom s l ++ keptFrom (l.foldl Server.atomicStep s) l' := by
  induction l generalizing s with
  | nil => rfl
  | cons i l ih => simp only [List.cons_append, keptFrom, ih, List.append_assoc, List.foldl_cons]

theorem keptSched_snoc (sched : List ι) (i : ι) : keptSched app reqs (sched ++ [i]) =
    keptSched app reqs sched ++ emits (serveAtomic app reqs sched) i := by
  unfold keptSched
  rw [keptFrom_append]
  simp only [keptFrom, List.append_nil]
  rfl

theorem keptSched_prefix {pre sched : List ι} (h : pre <+: sched) :
    keptSched app reqs pre <+: keptSched app reqs sched := by
  obtain ⟨post, rfl⟩ := h
  unfold keptSched
  rw [keptFrom_append]
  exact List.prefix_append _ _

omit [DecidableEq ι] in
theorem mem_emits {s : Server ι} {i j : ι} (h : j ∈ emits s i) : j = i := by
  unfold emits at h
  split at h
  · cases h
  · split at h <;> simpa using h
  · split at h
    · simpa using h
    · cases h
  · split at h
    · cases h
    · simpa using h

theorem mem_keptSched {j : ι} (h : j ∈ keptSched app reqs sched) : j ∈ sched := by
  induction sched using List.reverseRecOn with
  | nil => exact h
  | append_singleton sched i ih =>
    rw [keptSched_snoc, List.mem_append] at h
    rw [List.mem_append, List.mem_singleton]
    exact h.imp ih mem_emits

theorem serveAtomic_snoc (app : App) (reqs : ι → Event) (sched : List ι) (i : ι) :
    serveAtomic app reqs (sched ++ [i]) = (serveAtomic app reqs sched).atomicStep i := by
  simp [serveAtomic, List.foldl_append]

/-- The request is as in the application of the repository, or is about to add a user, or
has been refused. -/
def Same (app : App) (e : Event) (t t' : Task) : Prop :=
  (t' = t ∧ NoAdd t) ∨
  (∃ name h ch now, e = .registrationRequest (some name) h ch now ∧ t' = task app e ∧
    (t = task app e ∨ t = .addUser name h (afterAdd name ch now))) ∨
  (t = .done stale ∧ ∃ id n k, t' = .setCount id n k)

omit [DecidableEq ι] in
theorem emits_other {s : Server ι} {i : ι} {t : Task} (ht : s.tasks i = t) (hn : NoAdd t)
    (h1 : ∀ r, t ≠ .done r) (h2 : ∀ id n k, t ≠ .setCount id n k) :
    emits s i = [i] ∧ t.atomicStep s.db = t.step s.db := by
  subst ht
  have := hn.step (db := s.db)
  constructor
  · unfold emits
    split
    · rename_i h
      exact absurd h (h1 _)
    · rename_i h
      rw [h] at hn
      exact absurd hn id
    · rename_i h
      exact absurd h (h2 _ _ _)
    · split
      · rename_i h
        rw [h] at this
        exact absurd this id
      · rfl
  · cases ht : s.tasks i with
    | addUser => rw [ht] at hn; exact absurd hn id
    | setCount => exact absurd ht (h2 _ _ _)
    | _ => rfl

theorem Server.step_tasks (s : Server ι) (i j : ι) : (s.step i).tasks j =
    if j = i then ((s.tasks i).step s.db).1 else s.tasks j := rfl

/-- One statement, in both applications. -/
theorem same_step {s s' : Server ι} (hdb : s'.db = s.db)
    (h : ∀ j, Same app (reqs j) (s.tasks j) (s'.tasks j)) (i : ι) :
    ((emits s i).foldl Server.step s').db = (s.atomicStep i).db ∧
    ∀ j, Same app (reqs j) ((s.atomicStep i).tasks j) (((emits s i).foldl Server.step s').tasks j) := by
  have finish : ∀ {s2 : Server ι}, s2.db = ((s.tasks i).atomicStep s.db).2 →
      (∀ j, j ≠ i → s2.tasks j = s'.tasks j) →
      Same app (reqs i) ((s.tasks i).atomicStep s.db).1 (s2.tasks i) →
      s2.db = (s.atomicStep i).db ∧ ∀ j, Same app (reqs j) ((s.atomicStep i).tasks j) (s2.tasks j) := by
    intro s2 h1 h2 h3
    refine ⟨h1, fun j => ?_⟩
    by_cases hj : j = i
    · subst hj
      simpa only [Server.atomicStep, if_true] using h3
    · rw [h2 j hj]
      simpa only [Server.atomicStep, if_neg hj] using h j
  have one : ∀ {j}, j ≠ i → (s'.step i).tasks j = s'.tasks j := fun hj => by
    simp only [Server.step, if_neg hj]
  have self : (s'.step i).tasks i = ((s'.tasks i).step s.db).1 := by
    simp only [Server.step, if_true, hdb]
  have selfdb : (s'.step i).db = ((s'.tasks i).step s.db).2 := by
    simp only [Server.step, hdb]
  rcases h i with ⟨he, hn⟩ | ⟨name, hd, ch, now, he, ht', ht⟩ | ⟨ht, id, n, k, ht'⟩
  · cases ht : s.tasks i with
    | done r =>
      simp only [emits, ht, List.foldl_nil]
      exact finish (by rw [ht]; exact hdb) (fun _ _ => rfl) (by rw [ht, he, ht]; exact Or.inl ⟨rfl, trivial⟩)
    | setCount id n k =>
      rw [ht] at he hn
      by_cases hb : s.db.below id n = true
      · simp only [emits, ht, if_pos hb, List.foldl_cons, List.foldl_nil]
        refine finish ?_ (fun _ => one) ?_
        · rw [selfdb, he, ht]
          simp only [Task.atomicStep, Task.step, if_pos hb]
        · rw [self, he, ht]
          simp only [Task.atomicStep, Task.step, if_pos hb]
          exact Or.inl ⟨rfl, hn⟩
      · simp only [emits, ht, if_neg hb, List.foldl_nil]
        refine finish ?_ (fun _ _ => rfl) ?_
        · rw [ht]
          simp only [Task.atomicStep, if_neg hb]
          exact hdb
        · rw [ht]
          simp only [Task.atomicStep, if_neg hb]
          exact Or.inr (Or.inr ⟨rfl, _, _, _, he⟩)
    | addUser => rw [ht] at hn; exact absurd hn id
    | _ =>
      all_goals
        obtain ⟨e1, e2⟩ := emits_other ht (by rw [← ht]; exact hn) (by simp) (by simp)
        rw [e1]
        simp only [List.foldl_cons, List.foldl_nil]
        refine finish ?_ (fun _ => one) ?_
        · rw [selfdb, he, ht, e2]
        · rw [self, he, ht, e2]
          rw [ht] at hn
          exact Or.inl ⟨rfl, hn.step⟩
  · rcases ht with ht | ht
    · rw [he] at ht ht'
      cases hu : s.db.userNamed name with
      | some u =>
        have e1 : emits s i = [i] := by
          have := start_some (app := app) (h := hd) (ch := ch) (t := now) hu
          unfold emits
          rw [ht]
          simp only [task, registrationRequestTask, Task.step, hu, creationTask]
        rw [e1]
        simp only [List.foldl_cons, List.foldl_nil]
        refine finish ?_ (fun _ => one) ?_
        · rw [selfdb, ht, ht', start_atomic]
        · rw [self, ht, ht', start_atomic, start_some hu]
          exact Or.inl ⟨rfl, noAdd_creation _ _ _ _⟩
      | none =>
        have e1 : emits s i = [] := by
          unfold emits
          rw [ht]
          simp only [task, registrationRequestTask, Task.step, hu]
        rw [e1]
        simp only [List.foldl_nil]
        refine finish ?_ (fun _ _ => rfl) ?_
        · rw [ht, start_atomic, start_none hu]
          exact hdb
        · rw [ht, start_atomic, start_none hu]
          exact Or.inr (Or.inl ⟨name, hd, ch, now, he, by rw [ht', he], Or.inr rfl⟩)
    · rw [he] at ht'
      cases hu : s.db.userNamed name with
      | some u =>
        have e1 : emits s i = [i] := by
          unfold emits
          rw [ht]
          simp only [hu, Option.isSome_some, if_true]
        rw [e1]
        simp only [List.foldl_cons, List.foldl_nil]
        refine finish ?_ (fun _ => one) ?_
        · rw [selfdb, ht', start_some hu, ht]
          simp only [Task.atomicStep, hu]
        · rw [self, ht', start_some hu, ht]
          simp only [Task.atomicStep, hu]
          exact Or.inl ⟨rfl, noAdd_creation _ _ _ _⟩
      | none =>
        have e1 : emits s i = [i, i] := by
          unfold emits
          rw [ht]
          simp [hu]
        rw [ht', start_none hu] at self selfdb
        rw [e1]
        simp only [List.foldl_cons, List.foldl_nil]
        refine finish ?_ (fun j hj => ?_) ?_
        · show (((s'.step i).tasks i).step (s'.step i).db).2 = _
          rw [self, selfdb, ht]
          simp only [Task.atomicStep, Task.step, hu]
        · rw [Server.step_tasks, if_neg hj]
          exact one hj
        · rw [Server.step_tasks, if_pos rfl, self, selfdb, ht]
          simp only [Task.atomicStep, Task.step, hu]
          exact Or.inl ⟨rfl, noAdd_after _ _ _ _⟩
  · simp only [emits, ht, List.foldl_nil]
    exact finish (by rw [ht]; exact hdb) (fun _ _ => rfl)
      (by rw [ht, ht']; exact Or.inr (Or.inr ⟨rfl, _, _, _, rfl⟩))

/-- Both applications, in all orders of the statements. -/
theorem same_server (app : App) (reqs : ι → Event) (sched : List ι) :
    (serveAll app reqs (keptSched app reqs sched)).db = (serveAtomic app reqs sched).db ∧
    ∀ j, Same app (reqs j) ((serveAtomic app reqs sched).tasks j)
      ((serveAll app reqs (keptSched app reqs sched)).tasks j) := by
  induction sched using List.reverseRecOn with
  | nil =>
    refine ⟨rfl, fun j => ?_⟩
    rcases noAdd_task app (reqs j) with h | ⟨name, h, ch, t, he⟩
    · exact Or.inl ⟨rfl, h⟩
    · exact Or.inr (Or.inl ⟨name, h, ch, t, he, rfl, Or.inl rfl⟩)
  | append_singleton sched i ih =>
    rw [keptSched_snoc, serveAtomic_snoc]
    have : serveAll app reqs (keptSched app reqs sched ++ emits (serveAtomic app reqs sched) i) =
        (emits (serveAtomic app reqs sched) i).foldl Server.step
          (serveAll app reqs (keptSched app reqs sched)) := by
      simp [serveAll, List.foldl_append]
    rw [this]
    exact same_step ih.1 ih.2 i

/-! ## Answers -/

theorem atomicAnswer_some {sched : List ι} {i : ι} {r : Reply} :
    atomicAnswer app reqs sched i = some r ↔ (serveAtomic app reqs sched).tasks i = .done r := by
  unfold atomicAnswer
  split
  · rename_i h
    rw [h]
    simp
  · rename_i h
    simp only [reduceCtorEq, false_iff]
    exact fun h' => h r h'

theorem atomicStep_task (sched : List ι) (j : ι) : (serveAtomic app reqs (sched ++ [j])).tasks j =
    (((serveAtomic app reqs sched).tasks j).atomicStep (serveAtomic app reqs sched).db).1 := by
  rw [serveAtomic_snoc]
  simp only [Server.atomicStep, if_true]

theorem atomicStep_db (sched : List ι) (j : ι) : (serveAtomic app reqs (sched ++ [j])).db =
    (((serveAtomic app reqs sched).tasks j).atomicStep (serveAtomic app reqs sched).db).2 := by
  rw [serveAtomic_snoc]
  rfl

theorem atomicAnswer_other {sched : List ι} {i j : ι} (h : j ≠ i) :
    atomicAnswer app reqs (sched ++ [i]) j = atomicAnswer app reqs sched j := by
  unfold atomicAnswer
  rw [serveAtomic_snoc]
  simp only [Server.atomicStep, if_neg h]

theorem atomicAnswer_snoc {sched : List ι} {i j : ι} {r : Reply}
    (h : atomicAnswer app reqs sched i = some r) : atomicAnswer app reqs (sched ++ [j]) i = some r := by
  by_cases hij : i = j
  · subst hij
    rw [atomicAnswer_some] at h ⊢
    rw [atomicStep_task, h]
    rfl
  · rw [atomicAnswer_other hij, h]

theorem atomicAnswer_mono {pre sched : List ι} {i : ι} {r : Reply} (hp : pre <+: sched)
    (h : atomicAnswer app reqs pre i = some r) : atomicAnswer app reqs sched i = some r := by
  obtain ⟨post, rfl⟩ := hp
  induction post using List.reverseRecOn with
  | nil => simpa using h
  | append_singleton post j ih =>
    rw [← List.append_assoc]
    exact atomicAnswer_snoc ih

/-- The moment at which a request is answered. -/
theorem atomic_answered_at {sched : List ι} {i : ι} {r : Reply}
    (h : atomicAnswer app reqs sched i = some r) :
    atomicAnswer app reqs [] i = some r ∨
    ∃ p, p ++ [i] <+: sched ∧ atomicAnswer app reqs p i = none ∧
      atomicAnswer app reqs (p ++ [i]) i = some r := by
  induction sched using List.reverseRecOn with
  | nil => exact Or.inl h
  | append_singleton sched j ih =>
    cases hb : atomicAnswer app reqs sched i with
    | some r' =>
      have := atomicAnswer_snoc (j := j) hb
      rw [h] at this
      cases this
      rcases ih hb with h' | ⟨p, h1, h2⟩
      · exact Or.inl h'
      · exact Or.inr ⟨p, h1.trans (List.prefix_append _ _), h2⟩
    | none =>
      by_cases hij : i = j
      · subst hij
        exact Or.inr ⟨sched, List.prefix_refl _, hb, h⟩
      · rw [atomicAnswer_other hij, hb] at h
        cases h

/-- What the repaired application answers, unless it refuses, the other answers. -/
theorem answer_of_atomic {i : ι} {r : Reply} (h : atomicAnswer app reqs sched i = some r) :
    answer app reqs (keptSched app reqs sched) i = some r ∨ r = stale := by
  rw [atomicAnswer_some] at h
  rcases (same_server app reqs sched).2 i with ⟨he, -⟩ | ⟨name, hd, ch, now, he, ht', ht⟩ | ⟨ht, -⟩
  · exact Or.inl (answer_some.mpr (he.trans h))
  · rcases ht with ht | ht
    · exact Or.inl (answer_some.mpr ((ht'.trans ht.symm).trans h))
    · rw [ht] at h
      cases h
  · rw [ht] at h
    cases h
    exact Or.inr rfl

/-- And the converse. -/
theorem atomic_of_answer {i : ι} {r : Reply}
    (h : answer app reqs (keptSched app reqs sched) i = some r) : atomicAnswer app reqs sched i = some r := by
  rw [answer_some] at h
  rw [atomicAnswer_some]
  rcases (same_server app reqs sched).2 i with ⟨he, -⟩ | ⟨name, hd, ch, now, he, ht', ht⟩ | ⟨-, id, n, k, ht⟩
  · exact he.symm.trans h
  · rw [ht', he] at h
    cases h
  · rw [ht] at h
    cases h

theorem stale_ne : stale ≠ success ∧ ∀ v, stale ≠ .json v := by
  simp [stale, success]

theorem answer_of_success {i : ι} (h : atomicAnswer app reqs sched i = some success) :
    answer app reqs (keptSched app reqs sched) i = some success :=
  (answer_of_atomic h).resolve_right stale_ne.1.symm

/-! ## Moments -/

/-- A moment of the one application, in the other. -/
theorem kept_moment {p : List ι} (hp : p <+: keptSched app reqs sched) :
    ∃ pre, pre <+: sched ∧ keptSched app reqs pre <+: p ∧
      ∀ j r, answer app reqs p j = some r → answer app reqs (keptSched app reqs pre) j = some r := by
  induction sched using List.reverseRecOn with
  | nil => exact ⟨[], List.prefix_refl _, by
      rw [show p = [] from List.prefix_nil.mp hp]; exact List.prefix_refl _, fun j r h => by
      rw [show p = [] from List.prefix_nil.mp hp] at h; exact h⟩
  | append_singleton sched i ih =>
    by_cases hle : p <+: keptSched app reqs sched
    · obtain ⟨pre, h1, h2⟩ := ih hle
      exact ⟨pre, h1.trans (List.prefix_append _ _), h2⟩
    by_cases heq : p = keptSched app reqs (sched ++ [i])
    · subst heq
      exact ⟨_, List.prefix_refl _, List.prefix_refl _, fun _ _ h => h⟩
    rw [keptSched_snoc] at hp heq
    rcases List.prefix_or_prefix_of_prefix hp (List.prefix_append _ _) with h | h
    · exact absurd h hle
    obtain ⟨e, rfl⟩ := h
    have he : e <+: emits (serveAtomic app reqs sched) i := (List.prefix_append_right_inj _).mp hp
    refine ⟨sched, List.prefix_append _ _, List.prefix_append _ _, fun j r hj => ?_⟩
    -- the two statements of a request that adds a user
    obtain ⟨name, hd, k, ht, hu, rfl⟩ : ∃ name hd k,
        (serveAtomic app reqs sched).tasks i = .addUser name hd k ∧
        (serveAtomic app reqs sched).db.userNamed name = none ∧ e = [i] := by
      have h1 : e ≠ [] := by
        rintro rfl
        exact hle (by rw [List.append_nil]; exact List.prefix_refl _)
      have h2 : e ≠ emits (serveAtomic app reqs sched) i := by
        rintro rfl
        exact heq rfl
      have short : ∀ l : List ι, l.length ≤ 1 → emits (serveAtomic app reqs sched) i ≠ l := by
        rintro l hl rfl
        rcases h : emits (serveAtomic app reqs sched) i with - | ⟨a, - | ⟨b, l⟩⟩
        · rw [h] at he h2
          exact h2 (List.prefix_nil.mp he)
        · rw [h] at he h2
          rcases e with - | ⟨c, e⟩
          · exact h1 rfl
          · have := he.length_le
            simp only [List.length_cons, List.length_nil] at this
            have e0 : e = [] := List.eq_nil_of_length_eq_zero (by omega)
            subst e0
            exact h2 (he.eq_of_length rfl)
        · rw [h] at hl
          simp at hl
      cases ht : (serveAtomic app reqs sched).tasks i with
      | addUser name hd k =>
        cases hu : (serveAtomic app reqs sched).db.userNamed name with
        | some u => exact absurd (by simp [emits, ht, hu]) (short [i] (by simp))
        | none =>
          have h3 : emits (serveAtomic app reqs sched) i = [i, i] := by simp [emits, ht, hu]
          refine ⟨name, hd, k, rfl, hu, ?_⟩
          rw [h3] at he h2
          rcases e with - | ⟨a, - | ⟨b, e⟩⟩
          · exact absurd rfl h1
          · obtain ⟨l, hl⟩ := he
            simp only [List.cons_append, List.nil_append, List.cons.injEq] at hl
            rw [hl.1]
          · have := he.length_le
            simp only [List.length_cons, List.length_nil] at this
            have e0 : e = [] := List.eq_nil_of_length_eq_zero (by omega)
            subst e0
            exact absurd (he.eq_of_length rfl) h2
      | done r => exact absurd (by simp [emits, ht]) (short [] (by simp))
      | setCount id n k =>
        by_cases hb : (serveAtomic app reqs sched).db.below id n = true
        · exact absurd (by simp [emits, ht, hb]) (short [i] (by simp))
        · exact absurd (by simp [emits, ht, hb]) (short [] (by simp))
      | _ =>
        exfalso
        have : emits (serveAtomic app reqs sched) i = [] ∨ emits (serveAtomic app reqs sched) i = [i] := by
          unfold emits
          rw [ht]
          simp only
          split
          · exact Or.inl rfl
          · exact Or.inr rfl
        rcases this with h | h
        · exact short [] (by simp) h
        · exact short [i] (by simp) h
    by_cases hij : j = i
    · subst hij
      exfalso
      rw [answer_some, step_task] at hj
      obtain ⟨hdb, hs⟩ := same_server app reqs sched
      rcases hs j with ⟨-, hn⟩ | ⟨name', hd', ch, now, he', ht', ht2⟩ | ⟨ht2, -⟩
      · rw [ht] at hn
        exact hn
      · rcases ht2 with ht2 | ht2
        · rw [ht, he'] at ht2
          cases ht2
        · rw [ht] at ht2
          cases ht2
          rw [ht', he', hdb, start_none hu] at hj
          cases hj
      · rw [ht] at ht2
        cases ht2
    · rwa [answer_other hij] at hj

/-- A moment before a request succeeded, in the other application. -/
theorem before_kept {p : List ι} {i : ι} (h : atomicAnswer app reqs sched i = some success)
    (hb : Before app reqs (keptSched app reqs sched) i p) :
    ∃ pre, NotYet (atomicAnswer app reqs) sched i pre ∧
      ∀ j r, answer app reqs p j = some r → atomicAnswer app reqs pre j = some r := by
  obtain ⟨pre, h1, h2, h3⟩ := kept_moment hb.1
  refine ⟨pre, ⟨h1, ?_⟩, fun j r hj => atomic_of_answer (h3 j r hj)⟩
  cases hn : atomicAnswer app reqs pre i with
  | none => rfl
  | some r =>
    have := atomicAnswer_mono h1 hn
    rw [h] at this
    cases this
    have := answer_mono h2 (answer_of_success hn)
    rw [hb.2] at this
    cases this

theorem registered_of_kept {p pre : List ι} {j : ι} {id : Bytes} {name : String} {k : CPK}
    (h : ∀ r, answer app reqs p j = some r → atomicAnswer app reqs pre j = some r)
    (hr : RegisteredAt app reqs p j id name k) :
    RegisteredBy (atomicAnswer app reqs) app reqs pre j id name k := by
  obtain ⟨f, t, n, c, cdj, ob, o, raw, acd, h1, h2, h3⟩ := hr
  exact ⟨f, t, n, c, cdj, ob, o, raw, acd, h1, h _ h2, h3⟩

theorem issued_of_kept {p pre : List ι} {j : ι} {n : Nat} {ch : Bytes} {t : Int} {name : String}
    (h : ∀ r, answer app reqs p j = some r → atomicAnswer app reqs pre j = some r)
    (hr : IssuedAt app reqs p j n ch t name) :
    IssuedBy (atomicAnswer app reqs) reqs pre j n ch t name := by
  obtain ⟨⟨key, v, h1⟩, h2⟩ := hr
  exact ⟨⟨key, v, h _ h1⟩, h2⟩

theorem kept_of_registered {j : ι} {id : Bytes} {name : String} {k : CPK}
    (hr : RegisteredBy (atomicAnswer app reqs) app reqs sched j id name k) :
    RegisteredAt app reqs (keptSched app reqs sched) j id name k := by
  obtain ⟨f, t, n, c, cdj, ob, o, raw, acd, h1, h2, h3⟩ := hr
  exact ⟨f, t, n, c, cdj, ob, o, raw, acd, h1, answer_of_success h2, h3⟩

theorem kept_of_issued {j : ι} {n : Nat} {ch : Bytes} {t : Int} {name : String}
    (hr : IssuedBy (atomicAnswer app reqs) reqs sched j n ch t name) :
    IssuedAt app reqs (keptSched app reqs sched) j n ch t name := by
  obtain ⟨⟨key, v, h1⟩, h2⟩ := hr
  exact ⟨⟨key, v, (answer_of_atomic h1).resolve_right (stale_ne.2 _).symm⟩, h2⟩

end

end WebAuthn.Flask
