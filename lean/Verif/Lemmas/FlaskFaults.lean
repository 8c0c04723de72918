import Verif.Spec.FlaskFaults
import Verif.Lemmas.FlaskAtomic

/-!
# Lemmas on statements that fail

A server with faults has the tables of a server without, on which the statements that
failed without effect and everything after the failure of a request are left out.
-/

namespace WebAuthn.Flask

open WebAuthn

/-! ## What is answered to a failure -/

theorem failure_failed {t : Task} (h : ∀ r, t ≠ .done r) : Failed t.failure := by
  cases t <;> simp_all [Failed, Task.failure]

theorem failed_ne_success {r : Reply} (h : Failed r) : r ≠ success := by
  rcases h with rfl | rfl | rfl <;> simp [success]

theorem failed_ne_json {r : Reply} (h : Failed r) (v : PyVal) : r ≠ .json v := by
  rcases h with rfl | rfl | rfl <;> simp

/-- An exception of `register_credential_attestation` is answered with status 400. -/
theorem attestation_failure {env : Env} {m : String} {a : AttestationArgs} {r : AttestationRecord}
    {k : Py (Option String) → Prog} (h : attestationProg env a = .writeAttestation r k) :
    handlerTask env m (k (.error operationalError)) = .done (.text m 400) := by
  unfold attestationProg at h
  split at h
  · cases h
  · cases h
    rfl

/-- An exception of `get_credential_data` is. -/
theorem assertion_read_failure {env : Env} {m : String} {a : AssertionArgs} {id : Bytes}
    {k : Py (Option CredentialData) → Prog} (h : assertionProg env a = .read id k) :
    handlerTask env m (k (.error operationalError)) = .done (.text m 400) := by
  unfold assertionProg at h
  split at h
  · cases h
  · cases h
    rfl

/-- An exception of `register_credential_assertion` is. -/
theorem assertion_write_failure {env : Env} {m : String} {a : AssertionArgs} {id : Bytes}
    {k : Py (Option CredentialData) → Prog} (h : assertionProg env a = .read id k)
    {d : Py (Option CredentialData)} {r : AssertionRecord} {k' : Py (Option String) → Prog}
    (h' : k d = .writeAssertion r k') :
    handlerTask env m (k' (.error operationalError)) = .done (.text m 400) := by
  unfold assertionProg at h
  split at h
  · cases h
  · cases h
    unfold assertionProgFrom at h'
    split at h'
    · cases h'
    · split at h'
      · cases h'
      · cases h'
        rfl

/-! ## The statements that are executed -/

variable {ι : Type} [DecidableEq ι]

/-- The statements to keep, and the requests that have failed. -/
def trackStep (s : List ι × List ι) (p : ι × Fault) : List ι × List ι :=
  if p.1 ∈ s.2 then s else
    match p.2 with
    | .no => (s.1 ++ [p.1], s.2)
    | .before => (s.1, p.1 :: s.2)
    | .after => (s.1 ++ [p.1], p.1 :: s.2)

def track (sched : List (ι × Fault)) : List ι × List ι := sched.foldl trackStep ([], [])

def executed (sched : List (ι × Fault)) : List ι := (track sched).1

theorem track_snoc (l : List (ι × Fault)) (p : ι × Fault) : track (l ++ [p]) = trackStep (track l) p := by
  simp [track, List.foldl_append]

theorem trackStep_cases (s : List ι × List ι) (p : ι × Fault) :
    (trackStep s p).1 = s.1 ∨ (trackStep s p).1 = s.1 ++ [p.1] := by
  unfold trackStep
  split
  · exact Or.inl rfl
  · split <;> simp

theorem executed_snoc (l : List (ι × Fault)) (p : ι × Fault) :
    executed (l ++ [p]) = executed l ∨ executed (l ++ [p]) = executed l ++ [p.1] := by
  rw [executed, track_snoc]
  exact trackStep_cases _ _

theorem executed_mono {p q : List (ι × Fault)} (h : p <+: q) : executed p <+: executed q := by
  obtain ⟨l, rfl⟩ := h
  induction l using List.reverseRecOn with
  | nil =>
    rw [List.append_nil]
    exact List.prefix_refl _
  | append_singleton l x ih =>
    rw [← List.append_assoc]
    rcases executed_snoc (p ++ l) x with h | h <;> rw [h]
    · exact ih
    · exact ih.trans (List.prefix_append _ _)

theorem executed_sublist (sched : List (ι × Fault)) : (executed sched).Sublist (sched.map Prod.fst) := by
  induction sched using List.reverseRecOn with
  | nil => exact List.Sublist.refl _
  | append_singleton l x ih =>
    rw [List.map_append]
    rcases executed_snoc l x with h | h <;> rw [h]
    · exact ih.trans (List.sublist_append_left _ _)
    · exact ih.append (List.Sublist.refl _)

/-- A moment of the server without faults is one of the server with them. -/
theorem executed_prefix {sched : List (ι × Fault)} {p : List ι} (h : p <+: executed sched) :
    ∃ pre, pre <+: sched ∧ executed pre = p := by
  induction sched using List.reverseRecOn with
  | nil => exact ⟨[], List.nil_prefix, (List.prefix_nil.mp h).symm⟩
  | append_singleton l x ih =>
    have up : p <+: executed l → ∃ pre, pre <+: l ++ [x] ∧ executed pre = p := fun h => by
      obtain ⟨pre, h1, h2⟩ := ih h
      exact ⟨pre, h1.trans (List.prefix_append _ _), h2⟩
    rcases executed_snoc l x with e | e
    · exact up (e ▸ h)
    · rcases List.prefix_concat_iff.mp (e ▸ h) with h' | h'
      · exact ⟨l ++ [x], List.prefix_refl _, e.trans h'.symm⟩
      · exact up h'

/-- The statement that is kept. -/
theorem executed_snoc_prefix {sched : List (ι × Fault)} {p : List ι} {i : ι}
    (h : p ++ [i] <+: executed sched) :
    ∃ pre f, pre ++ [(i, f)] <+: sched ∧ executed pre = p := by
  induction sched using List.reverseRecOn with
  | nil => simp [executed, track] at h
  | append_singleton l x ih =>
    have up : p ++ [i] <+: executed l → ∃ pre f, pre ++ [(i, f)] <+: l ++ [x] ∧ executed pre = p :=
      fun h => by
        obtain ⟨pre, f, h1, h2⟩ := ih h
        exact ⟨pre, f, h1.trans (List.prefix_append _ _), h2⟩
    rcases executed_snoc l x with e | e
    · exact up (e ▸ h)
    · rcases List.prefix_concat_iff.mp (e ▸ h) with h' | h'
      · obtain ⟨h1, h2⟩ := List.append_inj' h' rfl
        cases h2
        exact ⟨l, x.2, List.prefix_refl _, h1.symm⟩
      · exact up h'

theorem track_dead {sched : List (ι × Fault)} {i : ι} (h : Spared sched i) : i ∉ (track sched).2 := by
  induction sched using List.reverseRecOn with
  | nil => exact List.not_mem_nil
  | append_singleton l x ih =>
    have hi := ih fun f hf => h f (List.mem_append_left _ hf)
    rw [track_snoc, trackStep]
    split_ifs with hd
    · exact hi
    · obtain ⟨j, f⟩ := x
      cases f with
      | no => exact hi
      | _ =>
        rw [List.mem_cons]
        rintro (rfl | h')
        · exact absurd (h _ (List.mem_append_right _ (List.mem_singleton_self _))) (by decide)
        · exact hi h'

theorem dead_of {sched : List (ι × Fault)} {i : ι} (h : ¬ Spared sched i) : i ∈ (track sched).2 := by
  induction sched using List.reverseRecOn with
  | nil => exact absurd (fun f hf => nomatch hf) h
  | append_singleton l x ih =>
    rw [track_snoc, trackStep]
    by_cases hl : Spared l i
    · obtain ⟨j, f⟩ := x
      have : j = i ∧ f ≠ .no := by
        simp only [Spared, List.mem_append, List.mem_singleton, not_forall] at h
        obtain ⟨g, hg | hg, hne⟩ := h
        · exact absurd (hl g hg) hne
        · cases hg
          exact ⟨rfl, hne⟩
      obtain ⟨rfl, hf⟩ := this
      rw [if_neg (track_dead hl)]
      cases f with
      | no => exact absurd rfl hf
      | _ => exact List.mem_cons_self
    · have := ih hl
      split_ifs
      · exact this
      · split
        · exact this
        · exact List.mem_cons_of_mem _ this
        · exact List.mem_cons_of_mem _ this

theorem executed_count {sched : List (ι × Fault)} {i : ι} (h : Spared sched i) :
    (executed sched).count i = (sched.map Prod.fst).count i := by
  induction sched using List.reverseRecOn with
  | nil => rfl
  | append_singleton l x ih =>
    have hl : Spared l i := fun f hf => h f (List.mem_append_left _ hf)
    obtain ⟨j, f⟩ := x
    rw [List.map_append, List.count_append, ← ih hl]
    by_cases hij : j = i
    · subst hij
      obtain rfl := h f (by simp)
      rw [executed, track_snoc, trackStep, if_neg (track_dead hl)]
      simp [executed]
    · have e : List.count i ([(j, f)].map Prod.fst) = 0 := by simp [hij]
      rw [e]
      rcases executed_snoc l (j, f) with h' | h' <;> rw [h']
      · rfl
      · simp [List.count_append, hij]

/-! ## The simulation -/

/-- `Server.step`, of any statements. -/
def Server.stepBy (step : Task → Db → Task × Db) (s : Server ι) (i : ι) : Server ι where
  tasks := fun j => if j = i then (step (s.tasks i) s.db).1 else s.tasks j
  db := (step (s.tasks i) s.db).2

def serveBy (step : Task → Db → Task × Db) (app : App) (reqs : ι → Event) (sched : List ι) : Server ι :=
  sched.foldl (Server.stepBy step) ⟨fun i => task app (reqs i), {}⟩

theorem serveBy_step (app : App) (reqs : ι → Event) (sched : List ι) :
    serveBy Task.step app reqs sched = serveAll app reqs sched := rfl

theorem serveBy_atomicStep (app : App) (reqs : ι → Event) (sched : List ι) :
    serveBy Task.atomicStep app reqs sched = serveAtomic app reqs sched := rfl

variable {step : Task → Db → Task × Db} {app : App} {reqs : ι → Event} {sched : List (ι × Fault)}

/-- A request that is answered has no statement. -/
def Halts (step : Task → Db → Task × Db) : Prop := ∀ r db, step (.done r) db = (.done r, db)

theorem halts_step : Halts Task.step := fun _ _ => rfl

theorem halts_atomicStep : Halts Task.atomicStep := fun _ _ => rfl

/-- The server with faults (`s`) and the one without (`b`). -/
structure Simulates (sched : List (ι × Fault)) (dead : List ι) (s b : Server ι) : Prop where
  db : s.db = b.db
  live : ∀ i, i ∉ dead → s.tasks i = b.tasks i
  dead : ∀ i, i ∈ dead → ∃ r, s.tasks i = .done r ∧
    (b.tasks i = .done r ∨ Failed r ∧ ((i, Fault.after) ∈ sched ∨ ∀ r', b.tasks i ≠ .done r'))

theorem simulates (hs : Halts step) (app : App) (reqs : ι → Event) (sched : List (ι × Fault)) :
    Simulates sched (track sched).2 (serveFaulty step app reqs sched)
      (serveBy step app reqs (executed sched)) := by
  induction sched using List.reverseRecOn with
  | nil => exact ⟨rfl, fun _ _ => rfl, fun _ h => nomatch h⟩
  | append_singleton l x ih =>
    obtain ⟨j, f⟩ := x
    have e1 : serveFaulty step app reqs (l ++ [(j, f)]) =
        Server.faultyStep step (serveFaulty step app reqs l) (j, f) := by
      simp [serveFaulty, List.foldl_append]
    have e2 : ∀ p, serveBy step app reqs (p ++ [j]) = Server.stepBy step (serveBy step app reqs p) j := by
      intro p
      simp [serveBy, List.foldl_append]
    rw [e1, executed, track_snoc]
    rw [executed] at ih
    generalize serveFaulty step app reqs l = s at ih
    have more : ∀ {b : Server ι} {dead : List ι}, Simulates l dead s b →
        Simulates (l ++ [(j, f)]) dead s b := fun h =>
      ⟨h.db, h.live, fun i hi => by
        obtain ⟨r, h1, h2 | ⟨h2, h3 | h3⟩⟩ := h.dead i hi
        · exact ⟨r, h1, Or.inl h2⟩
        · exact ⟨r, h1, Or.inr ⟨h2, Or.inl (List.mem_append_left _ h3)⟩⟩
        · exact ⟨r, h1, Or.inr ⟨h2, Or.inr h3⟩⟩⟩
    -- a request that is answered
    have stays : ∀ r, s.tasks j = .done r → Server.faultyStep step s (j, f) = s := by
      intro r hr
      have : (s.tasks j).faultyStep step f s.db = (s.tasks j, s.db) := by
        rw [hr]
        cases f <;> rfl
      simp only [Server.faultyStep, this]
      congr 1
      funext i
      split_ifs with h
      · rw [h]
      · rfl
    have stays' : ∀ b : Server ι, ∀ r, b.tasks j = .done r → Server.stepBy step b j = b := by
      intro b r hr
      simp only [Server.stepBy, hr, hs r b.db]
      congr 1
      funext i
      split_ifs with h
      · rw [h, hr]
      · rfl
    rw [trackStep]
    split_ifs with hd
    · obtain ⟨r, hr, -⟩ := ih.dead j hd
      rw [stays r hr]
      exact more ih
    · have hj := ih.live j hd
      by_cases hdone : ∃ r, s.tasks j = .done r
      · obtain ⟨r, hr⟩ := hdone
        have hb := hj ▸ hr
        rw [stays r hr]
        have dies : ∀ {b : Server ι}, Simulates (l ++ [(j, f)]) (track l).2 s b → b.tasks j = .done r →
            Simulates (l ++ [(j, f)]) (j :: (track l).2) s b := fun h hb =>
          ⟨h.db, fun i hi => h.live i fun h' => hi (List.mem_cons_of_mem _ h'), fun i hi => by
            rcases List.mem_cons.mp hi with rfl | hi
            · exact ⟨r, hr, Or.inl hb⟩
            · exact h.dead i hi⟩
        cases f with
        | no =>
          simp only [e2]
          rw [stays' _ r hb]
          exact more ih
        | before => exact dies (more ih) hb
        | after =>
          simp only [e2]
          rw [stays' _ r hb]
          exact dies (more ih) hb
      · have hdone : ∀ r, s.tasks j ≠ .done r := fun r hr => hdone ⟨r, hr⟩
        have hfail := failure_failed hdone
        have eno : (s.tasks j).faultyStep step .no s.db = step (s.tasks j) s.db := by
          cases h : s.tasks j <;> first | rfl | exact absurd h (hdone _)
        have ebefore : (s.tasks j).faultyStep step .before s.db = (.done (s.tasks j).failure, s.db) := by
          cases s.tasks j <;> rfl
        have eafter : (s.tasks j).faultyStep step .after s.db =
            (.done (s.tasks j).failure, (step (s.tasks j) s.db).2) := by
          cases h : s.tasks j <;> first | rfl | exact absurd h (hdone _)
        cases f with
        | no =>
          simp only [e2, Server.faultyStep, Server.stepBy, eno, ← hj, ← ih.db]
          refine ⟨rfl, fun i hi => ?_, fun i hi => ?_⟩
          · by_cases h : i = j
            · simp [h]
            · simpa [h] using ih.live i hi
          · have h : i ≠ j := fun h => hd (h ▸ hi)
            simpa [h] using (more ih).dead i hi
        | before =>
          simp only [Server.faultyStep, ebefore]
          refine ⟨ih.db, fun i hi => ?_, fun i hi => ?_⟩
          · have h : i ≠ j := fun h => hi (by simp [h])
            simpa [h] using ih.live i fun h' => hi (List.mem_cons_of_mem _ h')
          · by_cases h : i = j
            · subst h
              exact ⟨_, by simp, Or.inr ⟨hfail, Or.inr fun r' hr => hdone r' (hj.trans hr)⟩⟩
            · simpa [h] using (more ih).dead i ((List.mem_cons.mp hi).resolve_left h)
        | after =>
          simp only [e2, Server.faultyStep, Server.stepBy, eafter, ← hj, ← ih.db]
          refine ⟨rfl, fun i hi => ?_, fun i hi => ?_⟩
          · have h : i ≠ j := fun h => hi (by simp [h])
            simpa [h] using ih.live i fun h' => hi (List.mem_cons_of_mem _ h')
          · by_cases h : i = j
            · subst h
              exact ⟨_, by simp, Or.inr ⟨hfail, Or.inl (by simp)⟩⟩
            · simpa [h] using (more ih).dead i ((List.mem_cons.mp hi).resolve_left h)

/-! ## Answers -/

def answerBy (step : Task → Db → Task × Db) (app : App) (reqs : ι → Event) (sched : List ι) (i : ι) :
    Option Reply :=
  match (serveBy step app reqs sched).tasks i with
  | .done r => some r
  | _ => none

theorem answerBy_step (app : App) (reqs : ι → Event) (sched : List ι) (i : ι) :
    answerBy Task.step app reqs sched i = answer app reqs sched i := rfl

theorem answerBy_atomicStep (app : App) (reqs : ι → Event) (sched : List ι) (i : ι) :
    answerBy Task.atomicStep app reqs sched i = atomicAnswer app reqs sched i := rfl

theorem answerBy_some {l : List ι} {i : ι} {r : Reply} :
    answerBy step app reqs l i = some r ↔ (serveBy step app reqs l).tasks i = .done r := by
  unfold answerBy
  split
  · next h => simp [h]
  · next h => simpa using fun h' => h r h'

theorem faultyAnswer_some {i : ι} {r : Reply} :
    faultyAnswer step app reqs sched i = some r ↔
      (serveFaulty step app reqs sched).tasks i = .done r := by
  unfold faultyAnswer
  split
  · next h => simp [h]
  · next h => simpa using fun h' => h r h'

theorem faultyAnswer_mono {p q : List (ι × Fault)} {i : ι} {r : Reply} (hpq : p <+: q)
    (h : faultyAnswer step app reqs p i = some r) : faultyAnswer step app reqs q i = some r := by
  obtain ⟨l, rfl⟩ := hpq
  rw [faultyAnswer_some] at h ⊢
  induction l using List.reverseRecOn with
  | nil => rwa [List.append_nil]
  | append_singleton l x ih =>
    rw [← List.append_assoc]
    have e : serveFaulty step app reqs (p ++ l ++ [x]) =
        Server.faultyStep step (serveFaulty step app reqs (p ++ l)) x := by
      simp [serveFaulty, List.foldl_append]
    rw [e]
    by_cases hx : i = x.1
    · subst hx
      simp only [Server.faultyStep, if_true, ih]
      cases x.2 <;> rfl
    · simpa [Server.faultyStep, hx] using ih

/-- An answer is one of the server without faults, or to a failure. -/
theorem faulty_answer (hs : Halts step) {i : ι} {r : Reply}
    (h : faultyAnswer step app reqs sched i = some r) :
    answerBy step app reqs (executed sched) i = some r ∨ Failed r := by
  have sim := simulates hs app reqs sched
  rw [faultyAnswer_some] at h
  rw [answerBy_some]
  by_cases hd : i ∈ (track sched).2
  · obtain ⟨r', h1, h2⟩ := sim.dead i hd
    rw [h] at h1
    cases h1
    exact h2.imp_right And.left
  · exact Or.inl ((sim.live i hd).symm.trans h)

/-- An answer of the server without faults was given, or its request failed after it had
committed. -/
theorem answer_faulty (hs : Halts step) {i : ι} {r : Reply}
    (h : answerBy step app reqs (executed sched) i = some r) :
    faultyAnswer step app reqs sched i = some r ∨ (i, Fault.after) ∈ sched := by
  have sim := simulates hs app reqs sched
  rw [answerBy_some] at h
  rw [faultyAnswer_some]
  by_cases hd : i ∈ (track sched).2
  · obtain ⟨r', h1, h2 | ⟨-, h2 | h2⟩⟩ := sim.dead i hd
    · rw [h] at h2
      cases h2
      exact Or.inl h1
    · exact Or.inr h2
    · exact absurd h (h2 r)
  · exact Or.inl ((sim.live i hd).trans h)

/-- The answer to a request that does not fail. -/
theorem spared_answer (hs : Halts step) {i : ι} (h : Spared sched i) :
    faultyAnswer step app reqs sched i = answerBy step app reqs (executed sched) i := by
  simp only [faultyAnswer, answerBy, (simulates hs app reqs sched).live i (track_dead h)]
  rfl

/-- A moment before a request is answered with something else than a failure. -/
theorem before_faulty (hs : Halts step) {i : ι} {r : Reply} {p : List ι}
    (h : faultyAnswer step app reqs sched i = some r) (hr : ¬ Failed r) (hp : p <+: executed sched)
    (hn : answerBy step app reqs p i = none) :
    ∃ pre, pre <+: sched ∧ executed pre = p ∧ faultyAnswer step app reqs pre i = none := by
  obtain ⟨pre, h1, rfl⟩ := executed_prefix hp
  refine ⟨pre, h1, rfl, ?_⟩
  by_contra hne
  obtain ⟨r', h2⟩ := Option.ne_none_iff_exists'.mp hne
  rw [faultyAnswer_mono h1 h2] at h
  cases h
  rcases faulty_answer hs h2 with h3 | h3
  · rw [hn] at h3
    cases h3
  · exact hr h3

end WebAuthn.Flask
