import Verif.Spec.Kills
import Verif.Props.FlaskFaults

/-!
# The application is killed at any time (C110)
-/

namespace WebAuthn.Flask

open WebAuthn WebAuthn.Spec WebAuthn.Props

variable {ι : Type} [DecidableEq ι] {step : Task → Db → Task × Db} {app : App} {reqs : ι → Event} {ticks : List (Tick ι)}

/-! ## The statements that are executed -/

def logStep (step : Task → Db → Task × Db) (p : Process ι × List ι) (x : Tick ι) : Process ι × List ι :=
  (p.1.next step x, match x with
    | .statement i => if p.1.lost i then p.2 else p.2 ++ [i]
    | _ => p.2)

def logFrom (step : Task → Db → Task × Db) (app : App) (reqs : ι → Event) (ticks : List (Tick ι)) : Process ι × List ι :=
  ticks.foldl (logStep step) ({ server := ⟨fun i => task app (reqs i), {}⟩ }, [])

/-- The statements that are executed, in their order. -/
def logOf (step : Task → Db → Task × Db) (app : App) (reqs : ι → Event) (ticks : List (Tick ι)) : List ι :=
  (logFrom step app reqs ticks).2

theorem processes_snoc (l : List (Tick ι)) (x : Tick ι) :
    processes step app reqs (l ++ [x]) = (processes step app reqs l).next step x := by
  simp only [processes, List.foldl_append, List.foldl_cons, List.foldl_nil]

theorem logFrom_process (ticks : List (Tick ι)) : (logFrom step app reqs ticks).1 = processes step app reqs ticks := by
  induction ticks using List.reverseRecOn with
  | nil => rfl
  | append_singleton l x ih =>
    rw [processes_snoc, ← ih]
    simp only [logFrom, List.foldl_append, List.foldl_cons, List.foldl_nil, logStep]

theorem logOf_snoc (l : List (Tick ι)) (x : Tick ι) : logOf step app reqs (l ++ [x]) = match x with
    | .statement i => if (processes step app reqs l).lost i then logOf step app reqs l else logOf step app reqs l ++ [i]
    | _ => logOf step app reqs l := by
  rw [← logFrom_process]
  simp only [logOf, logFrom, List.foldl_append, List.foldl_cons, List.foldl_nil, logStep]
  rfl

theorem logOf_grows (l : List (Tick ι)) (x : Tick ι) :
    logOf step app reqs (l ++ [x]) = logOf step app reqs l ∨ ∃ i, logOf step app reqs (l ++ [x]) = logOf step app reqs l ++ [i] := by
  rw [logOf_snoc]
  cases x with
  | statement i =>
    simp only
    split
    · exact Or.inl rfl
    · exact Or.inr ⟨i, rfl⟩
  | send i => exact Or.inl rfl
  | kill => exact Or.inl rfl

theorem logOf_prefix {p : List ι} (h : p <+: logOf step app reqs ticks) :
    ∃ pre, pre <+: ticks ∧ logOf step app reqs pre = p := by
  induction ticks using List.reverseRecOn with
  | nil => exact ⟨[], List.nil_prefix, (List.prefix_nil.mp h).symm⟩
  | append_singleton l x ih =>
    have old : p <+: logOf step app reqs l → ∃ pre, pre <+: l ++ [x] ∧ logOf step app reqs pre = p := by
      intro h
      obtain ⟨pre, h1, h2⟩ := ih h
      exact ⟨pre, h1.trans (List.prefix_append _ _), h2⟩
    rcases logOf_grows (step := step) (app := app) (reqs := reqs) l x with h1 | ⟨i, h1⟩
    · exact old (h1 ▸ h)
    · rw [h1] at h
      rcases List.prefix_concat_iff.mp h with h2 | h2
      · exact ⟨l ++ [x], List.prefix_rfl, by rw [h1, h2]⟩
      · exact old h2

theorem attempts_snoc (l : List (Tick ι)) (x : Tick ι) (i : ι) : attempts (l ++ [x]) i = attempts l i + match x with
    | .statement j => if j = i then 1 else 0
    | _ => 0 := by
  rw [attempts, List.countP_append, attempts]
  cases x with
  | statement j => by_cases h : j = i <;> simp [h]
  | send j => simp
  | kill => simp

theorem logOf_count (ticks : List (Tick ι)) (i : ι) : (logOf step app reqs ticks).count i ≤ attempts ticks i := by
  induction ticks using List.reverseRecOn with
  | nil => exact Nat.le_refl _
  | append_singleton l x ih =>
    rw [logOf_snoc, attempts_snoc]
    cases x with
    | statement j =>
      simp only
      split
      · omega
      · rw [List.count_append, List.count_singleton]
        by_cases h : j = i <;> simp [h] <;> omega
    | send j => exact ih
    | kill => exact ih

theorem stepBy_eq (hs : Halts step) (s : Server ι) (i : ι) : s.faultyStep step (i, .no) = s.stepBy step i := by
  have : (s.tasks i).faultyStep step .no s.db = step (s.tasks i) s.db := by
    cases h : s.tasks i with
    | done r => rw [hs]; rfl
    | _ => rfl
  simp only [Server.faultyStep, Server.stepBy, this]

theorem server_log (hs : Halts step) (ticks : List (Tick ι)) :
    (processes step app reqs ticks).server = serveBy step app reqs (logOf step app reqs ticks) := by
  induction ticks using List.reverseRecOn with
  | nil => rfl
  | append_singleton l x ih =>
    rw [processes_snoc, logOf_snoc]
    cases x with
    | statement i =>
      simp only [Process.next]
      split
      · exact ih
      · simp only [stepBy_eq hs, ih, serveBy, List.foldl_append, List.foldl_cons, List.foldl_nil]
    | send i =>
      simp only [Process.next]
      split
      · split <;> exact ih
      · exact ih
    | kill => exact ih

theorem outcome_log (hs : Halts step) (ticks : List (Tick ι)) (i : ι) :
    outcome step app reqs ticks i = answerBy step app reqs (logOf step app reqs ticks) i := by
  rw [outcome, server_log hs]
  rfl

theorem tables_log (hs : Halts step) (ticks : List (Tick ι)) :
    tablesAfter step app reqs ticks = (serveBy step app reqs (logOf step app reqs ticks)).db := by
  rw [tablesAfter, server_log hs]

theorem begun_of (i : ι) : (processes step app reqs ticks).lost i = true → (processes step app reqs ticks).begun i = true := by
  induction ticks using List.reverseRecOn with
  | nil => intro h; cases h
  | append_singleton l x ih =>
    rw [processes_snoc]
    cases x with
    | statement j =>
      simp only [Process.next]
      split
      · exact ih
      · intro h
        simp [ih h]
    | send j =>
      simp only [Process.next]
      split
      · split <;> exact ih
      · exact ih
    | kill =>
      simp only [Process.next, Bool.or_eq_true, Bool.and_eq_true]
      rintro (h | h)
      · exact ih h
      · exact h.1

theorem begun_mem (i : ι) : (processes step app reqs ticks).begun i = true → .statement i ∈ ticks := by
  induction ticks using List.reverseRecOn with
  | nil => intro h; cases h
  | append_singleton l x ih =>
    rw [processes_snoc]
    intro h
    cases x with
    | statement j =>
      simp only [Process.next] at h
      split at h
      · exact List.mem_append_left _ (ih h)
      · simp only [Bool.or_eq_true, beq_iff_eq] at h
        rcases h with rfl | h
        · simp
        · exact List.mem_append_left _ (ih h)
    | send j =>
      simp only [Process.next] at h
      split at h
      · split at h <;> exact List.mem_append_left _ (ih h)
      · exact List.mem_append_left _ (ih h)
    | kill => exact List.mem_append_left _ (ih h)

/-- A request that begins after the last kill is not lost. -/
theorem not_lost {a b : List (Tick ι)} {i : ι} (ha : .statement i ∉ a) (hb : .kill ∉ b) :
    (processes step app reqs (a ++ b)).lost i = false := by
  induction b using List.reverseRecOn with
  | nil =>
    rw [List.append_nil, ← Bool.not_eq_true]
    exact fun h => ha (begun_mem i (begun_of i h))
  | append_singleton l x ih =>
    simp only [List.mem_append, List.mem_singleton, not_or] at hb
    have ih := ih hb.1
    rw [← List.append_assoc, processes_snoc]
    cases x with
    | statement j =>
      simp only [Process.next]
      split <;> exact ih
    | send j =>
      simp only [Process.next]
      split
      · split <;> exact ih
      · exact ih
    | kill => exact absurd rfl hb.2

theorem logOf_after {a b : List (Tick ι)} {i : ι} (ha : .statement i ∉ a) (hb : .kill ∉ b) :
    (logOf step app reqs (a ++ b)).count i = attempts b i := by
  induction b using List.reverseRecOn with
  | nil =>
    rw [List.append_nil]
    have h1 := logOf_count (step := step) (app := app) (reqs := reqs) a i
    have h2 : attempts a i = 0 := by
      rw [attempts, List.countP_eq_zero]
      intro x hx
      cases x with
      | statement j =>
        simp only [beq_iff_eq]
        rintro rfl
        exact ha hx
      | send j => simp
      | kill => simp
    rw [h2] at h1
    exact Nat.le_zero.mp h1
  | append_singleton l x ih =>
    simp only [List.mem_append, List.mem_singleton, not_or] at hb
    have ih := ih hb.1
    rw [← List.append_assoc, logOf_snoc, attempts_snoc, ← ih]
    cases x with
    | statement j =>
      by_cases h : j = i
      · subst h
        simp [not_lost ha hb.1]
      · simp only [if_neg h]
        split
        · rfl
        · simp [List.count_append, h]
    | send j => rfl
    | kill => exact absurd rfl hb.2

theorem sent_mem {i : ι} : (processes step app reqs ticks).sent i = true → .send i ∈ ticks := by
  induction ticks using List.reverseRecOn with
  | nil => intro h; cases h
  | append_singleton l x ih =>
    rw [processes_snoc]
    intro h
    cases x with
    | statement j =>
      simp only [Process.next] at h
      split at h <;> exact List.mem_append_left _ (ih h)
    | send j =>
      simp only [Process.next] at h
      split at h
      · split at h
        · exact List.mem_append_left _ (ih h)
        · simp only [Bool.or_eq_true, beq_iff_eq] at h
          rcases h with rfl | h
          · simp
          · exact List.mem_append_left _ (ih h)
      · exact List.mem_append_left _ (ih h)
    | kill => exact List.mem_append_left _ (ih h)

theorem logOf_map (l : List ι) : logOf step app reqs (l.map .statement) = l := by
  induction l using List.reverseRecOn with
  | nil => rfl
  | append_singleton l i ih =>
    rw [List.map_append, List.map_singleton, logOf_snoc, ih]
    have := not_lost (step := step) (app := app) (reqs := reqs) (a := []) (b := l.map .statement) (i := i) (by simp) (by simp)
    rw [List.nil_append] at this
    simp [this]

/-! ## C110 -/

/-- C110: the application answers as if the requests that were lost had stopped: there is an order of statements, some of
those that were to be executed, with the same tables and the same replies, in which a request that began after the last
kill has all of its statements. -/
theorem C110_as_if (app : App) (reqs : ι → Event) (ticks : List (Tick ι)) :
    ∃ sched : List ι, tablesAfter Task.step app reqs ticks = (serveAll app reqs sched).db ∧
      (∀ i, outcome Task.step app reqs ticks i = answer app reqs sched i) ∧
      (∀ i, sched.count i ≤ attempts ticks i) ∧
      ∀ i a b, ticks = a ++ b → .statement i ∉ a → .kill ∉ b → sched.count i = attempts b i := by
  refine ⟨logOf Task.step app reqs ticks, tables_log halts_step ticks, outcome_log halts_step ticks, logOf_count ticks, ?_⟩
  rintro i a b rfl ha hb
  exact logOf_after ha hb

/-- C110: what is sent is what the process came to. -/
theorem C110_received {i : ι} {r : Reply} (h : received step app reqs ticks i = some r) :
    outcome step app reqs ticks i = some r := by
  rw [received] at h
  split at h
  · exact h
  · cases h

/-- C110: the keys of the tables stay unique. -/
theorem C110_tables (app : App) (reqs : ι → Event) (ticks : List (Tick ι)) :
    Keyed (tablesAfter Task.step app reqs ticks) := by
  rw [tables_log halts_step]
  exact C63_tables app reqs _

/-- C110: a login is with a credential that was registered by the user, by a registration of which all statements were
executed, and signed with its key. -/
theorem C110_login (codec : CodecLaws app.env) {i : ι} {f : Form} {now : Int}
    (hi : reqs i = .authenticationResponse f now) (h : received Task.step app reqs ticks i = some success) :
    ∃ n c name pre j k cdj raw sig handle, Submits app f n c name ∧
      NotYet (outcome Task.step app reqs) ticks i pre ∧
      RegisteredBy (outcome Task.step app reqs) app reqs pre j c.rawId name k ∧
      c.response = .assertion cdj raw sig handle ∧ SignedBy app.env k sig (raw ++ app.env.sha256 cdj) := by
  have h := C110_received h
  rw [outcome_log halts_step, answerBy_step] at h
  obtain ⟨n, c, name, p, j, k, cdj, raw, sig, handle, h1, ⟨h2, h2'⟩, h3, h4⟩ := C63_login codec hi h
  obtain ⟨pre, h5, rfl⟩ := logOf_prefix h2
  refine ⟨n, c, name, pre, j, k, cdj, raw, sig, handle, h1, ⟨h5, ?_⟩, ?_, h4⟩
  · rw [outcome_log halts_step, answerBy_step]
    exact h2'
  · obtain ⟨f', t, n', c', cdj', ob, o, raw', acd, g1, g2, g3⟩ := h3
    refine ⟨f', t, n', c', cdj', ob, o, raw', acd, g1, ?_, g3⟩
    rw [outcome_log halts_step, answerBy_step]
    exact g2

/-- C110: a success is for a challenge that was issued before, at most 60000 ms ago. -/
theorem C110_fresh {i : ι} {f : Form} {now : Int} {n : Nat} {c : Credential} {name : String}
    (hi : reqs i = .registrationResponse f now ∨ reqs i = .authenticationResponse f now)
    (hs : Submits app f n c name) (h : received Task.step app reqs ticks i = some success) :
    ∃ pre j ch t name' cdj d text, NotYet (outcome Task.step app reqs) ticks i pre ∧
      IssuedBy (outcome Task.step app reqs) reqs pre j n ch t name' ∧ now - t ≤ 60000 ∧
      ((∃ ob, c.response = .attestation cdj ob) ∨
        ∃ raw sig handle, c.response = .assertion cdj raw sig handle) ∧
      ClientJson app.env cdj d ∧ Lookup d (.str "challenge") (.str text) ∧ Base64UrlText text ch := by
  have h := C110_received h
  rw [outcome_log halts_step, answerBy_step] at h
  obtain ⟨p, j, ch, t, name', cdj, d, text, ⟨h2, h2'⟩, ⟨⟨key, v, h3⟩, h3'⟩, h4⟩ := C63_fresh_challenge hi hs h
  obtain ⟨pre, h5, rfl⟩ := logOf_prefix h2
  refine ⟨pre, j, ch, t, name', cdj, d, text, ⟨h5, ?_⟩, ⟨⟨key, v, ?_⟩, h3'⟩, h4⟩
  · rw [outcome_log halts_step, answerBy_step]
    exact h2'
  · rw [outcome_log halts_step, answerBy_step]
    exact h3

/-- C110: a credential is registered once, though the reply may be lost: whoever tries again is refused. -/
theorem C110_registered_once {j j' : ι} {id : Bytes} {name name' : String} {k k' : CPK}
    (h : RegisteredBy (outcome Task.step app reqs) app reqs ticks j id name k)
    (h' : RegisteredBy (outcome Task.step app reqs) app reqs ticks j' id name' k') : j = j' := by
  have key : ∀ {j name k}, RegisteredBy (outcome Task.step app reqs) app reqs ticks j id name k →
      RegisteredAt app reqs (logOf Task.step app reqs ticks) j id name k := by
    rintro j name k ⟨f, t, n, c, cdj, ob, o, raw, acd, g1, g2, g3⟩
    rw [outcome_log halts_step, answerBy_step] at g2
    exact ⟨f, t, n, c, cdj, ob, o, raw, acd, g1, g2, g3⟩
  exact C63_registered_once (key h) (key h')

/-- C110: with the statements of `Verif/Model/FlaskAtomic.lean` one approval is good for one login, killed at any time. -/
theorem C110_repaired_one_each (codec : CodecLaws app.env) (json : JsonLaw app.env)
    {j : ι} {id : Bytes} {name : String} {k : CPK} {acts : Approval → Prop}
    (holder : Holder app.env k (SentIn app reqs) acts)
    (hr : RegisteredBy (outcome Task.atomicStep app reqs) app reqs ticks j id name k) :
    OneEach app.env acts (LoginBy (received Task.atomicStep app reqs) app reqs ticks) id := by
  obtain ⟨f, t, n, c, cdj, ob, o, raw, acd, h1, h2, h3⟩ := hr
  rw [outcome_log halts_atomicStep, answerBy_atomicStep] at h2
  obtain ⟨approval, g1, g2⟩ := C67_repaired codec json holder (sched := logOf Task.atomicStep app reqs ticks)
    ⟨f, t, n, c, cdj, ob, o, raw, acd, h1, h2, h3⟩
  have low : ∀ {c i}, LoginBy (received Task.atomicStep app reqs) app reqs ticks c i →
      LoginBy (atomicAnswer app reqs) app reqs (logOf Task.atomicStep app reqs ticks) c i := by
    rintro c i ⟨f, t, n, name, a1, a2, a3⟩
    have a2 := C110_received a2
    rw [outcome_log halts_atomicStep, answerBy_atomicStep] at a2
    exact ⟨f, t, n, name, a1, a2, a3⟩
  exact ⟨approval, fun i c hi => g1 i c (low hi), fun i j c c' hi hid hj => g2 i j c c' (low hi) hid (low hj)⟩

/-! ## The application goes on -/

theorem attempts_replicate (n : Nat) (i : ι) : attempts (List.replicate n (Tick.statement i)) i = n := by
  rw [attempts, List.countP_replicate]
  simp

theorem logOf_replicate {a : List (Tick ι)} {i : ι} (ha : .statement i ∉ a) (n : Nat) :
    logOf step app reqs (a ++ List.replicate n (.statement i)) = logOf step app reqs a ++ List.replicate n i := by
  induction n with
  | zero => simp
  | succ n ih =>
    rw [List.replicate_succ', ← List.append_assoc, logOf_snoc, List.replicate_succ', ← List.append_assoc, ← ih]
    simp only [not_lost ha (b := List.replicate n (.statement i)) (by simp)]
    rfl

/-- C110: whenever the process was killed, a request after that is answered as the application answers it with the
tables that are there. -/
theorem C110_goes_on {i : ι} (h : .statement i ∉ ticks) :
    received Task.step app reqs (ticks ++ List.replicate 6 (.statement i) ++ [.send i]) i =
        some (Flask.step app (reqs i) (tablesAfter Task.step app reqs ticks)).1 ∧
      tablesAfter Task.step app reqs (ticks ++ List.replicate 6 (.statement i) ++ [.send i]) =
        (Flask.step app (reqs i) (tablesAfter Task.step app reqs ticks)).2 := by
  have hn : i ∉ logOf Task.step app reqs ticks := by
    rw [← List.count_eq_zero]
    have h1 := logOf_after (step := Task.step) (app := app) (reqs := reqs) (b := []) h (by simp)
    rw [List.append_nil] at h1
    rw [h1]
    rfl
  obtain ⟨h1, h2⟩ := C63_uninterrupted (app := app) (reqs := reqs) hn
  have hlog : logOf Task.step app reqs (ticks ++ List.replicate 6 (.statement i) ++ [.send i]) =
      logOf Task.step app reqs ticks ++ List.replicate 6 i := by
    rw [logOf_snoc]
    exact logOf_replicate h 6
  have ht := tables_log (app := app) (reqs := reqs) halts_step ticks
  rw [serveBy_step] at ht
  have ho : outcome Task.step app reqs (ticks ++ List.replicate 6 (.statement i) ++ [.send i]) i =
      some (Flask.step app (reqs i) (tablesAfter Task.step app reqs ticks)).1 := by
    rw [outcome_log halts_step, hlog, answerBy_step, h1, ht]
  refine ⟨?_, by rw [tables_log halts_step, hlog, serveBy_step, h2, ht]⟩
  have hsent : (processes Task.step app reqs (ticks ++ List.replicate 6 (.statement i) ++ [.send i])).sent i = true := by
    have hd : (processes Task.step app reqs (ticks ++ List.replicate 6 (.statement i))).server.tasks i =
        .done (Flask.step app (reqs i) (tablesAfter Task.step app reqs ticks)).1 := by
      rw [server_log halts_step, logOf_replicate h, ← answerBy_some, answerBy_step, h1, ht]
    rw [processes_snoc]
    simp only [Process.next, hd, not_lost h (b := List.replicate 6 (.statement i)) (by simp)]
    simp
  rw [received, hsent, if_pos rfl, ho]

/-! ## What is cut off before it writes -/

/-- The next `n` statements change nothing. -/
def Quiet : Nat → Task → Prop
  | 0, _ => True
  | n + 1, t => ∀ db, (t.step db).2 = db ∧ Quiet n (t.step db).1

theorem quiet_done (n : Nat) (r : Reply) : Quiet n (.done r) := by
  induction n with
  | zero => trivial
  | succ n ih => exact fun db => ⟨rfl, ih⟩

theorem Quiet.less {n m : Nat} {t : Task} (h : Quiet n t) (hm : m ≤ n) : Quiet m t := by
  induction m generalizing n t with
  | zero => trivial
  | succ m ih =>
    obtain ⟨n, rfl⟩ : ∃ k, n = k + 1 := ⟨n - 1, by omega⟩
    exact fun db => ⟨(h db).1, ih (h db).2 (by omega)⟩

theorem quiet_read {att : Bool} {f : Form} {now : Int} {k : Credential → Challenge → User → Task}
    {n : Nat} (h : ∀ c ch u, Quiet n (k c ch u)) : Quiet (n + 2) (readTask app att f now k) := by
  unfold readTask
  split
  · split <;> exact quiet_done _ _
  · split
    · exact quiet_done _ _
    · refine fun db => ⟨rfl, ?_⟩
      simp only [Task.step]
      split
      · exact quiet_done _ _
      · refine fun db => ⟨rfl, ?_⟩
        simp only [Task.step]
        split
        · exact quiet_done _ _
        · split
          · exact quiet_done _ _
          · exact h _ _ _

theorem quiet_attestation (env : Env) (m : String) (a : AttestationArgs) :
    Quiet 1 (handlerTask env m (attestationProg env a)) := by
  unfold attestationProg
  cases attestationChecks env a with
  | error e => exact quiet_done _ _
  | ok r =>
    simp only [handlerTask]
    cases r.att.authData.attested with
    | none => exact quiet_done _ _
    | some acd => exact fun db => ⟨rfl, trivial⟩

theorem quiet_from (env : Env) (m : String) (a : AssertionArgs) (allowed : List Origin)
    (w : Py (Option CredentialData)) : Quiet 1 (handlerTask env m (assertionProgFrom env a allowed w)) := by
  unfold assertionProgFrom
  cases checkRead w with
  | error e => exact quiet_done _ _
  | ok cd =>
    simp only
    cases assertionChecks env a allowed cd with
    | error e => exact quiet_done _ _
    | ok r => exact fun db => ⟨rfl, trivial⟩

theorem quiet_refused (env : Env) (m : String) (a : AssertionArgs) (allowed : List Origin)
    (w : Py (Option CredentialData)) (n : Nat) (h : ∀ cd, w ≠ .ok (some cd)) :
    Quiet n (handlerTask env m (assertionProgFrom env a allowed w)) := by
  unfold assertionProgFrom
  cases h' : checkRead w with
  | error e => exact quiet_done _ _
  | ok cd => exact absurd (checkRead_ok_iff.mp h') (h cd)

theorem quiet_assertion (env : Env) (m : String) (a : AssertionArgs) :
    Quiet 3 (handlerTask env m (assertionProg env a)) := by
  unfold assertionProg
  cases assertionPre env a with
  | error e => exact quiet_done _ _
  | ok allowed =>
    simp only [handlerTask]
    refine fun db => ⟨rfl, ?_⟩
    simp only [Task.step]
    cases db.credential a.credential.rawId with
    | none => exact quiet_refused _ _ _ _ _ _ (by simp)
    | some c =>
      simp only
      cases parseCoseKeyBytes env c.key with
      | error e => exact quiet_refused _ _ _ _ _ _ (by simp)
      | ok key =>
        refine fun db => ⟨rfl, ?_⟩
        simp only [Task.step]
        cases db.userOfId c.userId with
        | none => exact quiet_refused _ _ _ _ _ _ (by simp)
        | some u => exact quiet_from _ _ _ _ _

/-- How many statements of a request come before the first that writes. -/
def reads : Event → Nat
  | .registrationRequest .. => 1
  | .authenticationRequest .. => 2
  | .registrationResponse .. => 3
  | .authenticationResponse .. => 5

theorem quiet_task (app : App) (e : Event) : Quiet (reads e) (task app e) := by
  cases e with
  | registrationRequest n h c t =>
    cases n with
    | none => exact quiet_done _ _
    | some name => exact fun db => ⟨rfl, trivial⟩
  | authenticationRequest n c t =>
    cases n with
    | none => exact quiet_done _ _
    | some name =>
      refine fun db => ⟨rfl, ?_⟩
      simp only [task, authenticationRequestTask, Task.step]
      cases db.userNamed name with
      | none => exact quiet_done _ _
      | some u => exact fun db => ⟨rfl, trivial⟩
  | registrationResponse f t => exact quiet_read fun _ _ _ => quiet_attestation _ _ _
  | authenticationResponse f t => exact quiet_read fun _ _ _ => quiet_assertion _ _ _

theorem leavingOut_snoc (l : List (Tick ι)) (x : Tick ι) (i : ι) : leavingOut (l ++ [x]) i = leavingOut l i ++ match x with
    | .statement j => if j = i then [] else [.statement j]
    | .send j => if j = i then [] else [.send j]
    | .kill => [.kill] := by
  rw [leavingOut, List.filter_append, leavingOut]
  cases x with
  | statement j => by_cases h : j = i <;> simp [h]
  | send j => by_cases h : j = i <;> simp [h]
  | kill => simp

/-- Both processes are the same but for the request `i`, which has read only. -/
structure SameBut (i : ι) (n : Nat) (s s' : Process ι) : Prop where
  db : s.server.db = s'.server.db
  tasks : ∀ j, j ≠ i → s.server.tasks j = s'.server.tasks j
  begun : ∀ j, j ≠ i → s.begun j = s'.begun j
  lost : ∀ j, j ≠ i → s.lost j = s'.lost j
  sent : ∀ j, j ≠ i → s.sent j = s'.sent j
  quiet : Quiet n (s.server.tasks i)

theorem faulty_no (t : Task) (db : Db) : t.faultyStep Task.step .no db = t.step db := by
  cases t <;> rfl

theorem sameBut {i : ι} {n : Nat} (hq : Quiet n (task app (reqs i))) (h : attempts ticks i ≤ n) :
    SameBut i (n - attempts ticks i) (processes Task.step app reqs ticks)
      (processes Task.step app reqs (leavingOut ticks i)) := by
  induction ticks using List.reverseRecOn with
  | nil => exact ⟨rfl, fun _ _ => rfl, fun _ _ => rfl, fun _ _ => rfl, fun _ _ => rfl, hq⟩
  | append_singleton l x ih =>
    have hle : attempts l i ≤ n := by
      rw [attempts_snoc] at h
      omega
    have ih := ih hle
    rw [processes_snoc, leavingOut_snoc, attempts_snoc]
    rw [attempts_snoc] at h
    generalize processes Task.step app reqs l = s at ih
    cases x with
    | statement j =>
      by_cases hj : j = i
      · subst hj
        simp only [eq_self, if_true, List.append_nil, Process.next] at h ⊢
        generalize processes Task.step app reqs (leavingOut l j) = s' at ih
        split
        · exact ⟨ih.db, ih.tasks, ih.begun, ih.lost, ih.sent, ih.quiet.less (by omega)⟩
        · have hq := ih.quiet
          rw [show n - attempts l j = (n - (attempts l j + 1)) + 1 by omega] at hq
          have hq := hq s.server.db
          refine ⟨?_, ?_, ?_, ih.lost, ih.sent, ?_⟩
          · simp only [Server.faultyStep, faulty_no, hq.1]
            exact ih.db
          · intro k hk
            simp only [Server.faultyStep, if_neg hk]
            exact ih.tasks k hk
          · intro k hk
            simp [hk, ih.begun k hk]
          · simp only [Server.faultyStep, faulty_no, if_true]
            exact hq.2
      · simp only [if_neg hj, processes_snoc, Process.next, Nat.add_zero]
        generalize processes Task.step app reqs (leavingOut l i) = s' at ih
        rw [ih.lost j hj]
        split
        · exact ih
        · refine ⟨?_, ?_, ?_, ih.lost, ih.sent, ?_⟩
          · simp only [Server.faultyStep, ih.db, ih.tasks j hj]
          · intro k hk
            simp only [Server.faultyStep, ih.db, ih.tasks j hj, ih.tasks k hk]
          · intro k hk
            simp only [ih.begun k hk]
          · simp only [Server.faultyStep, if_neg (Ne.symm hj)]
            exact ih.quiet
    | send j =>
      by_cases hj : j = i
      · subst hj
        simp only [eq_self, if_true, List.append_nil, Process.next, Nat.add_zero]
        generalize processes Task.step app reqs (leavingOut l j) = s' at ih
        split
        · split
          · exact ih
          · exact ⟨ih.db, ih.tasks, ih.begun, ih.lost, fun k hk => by simp [hk, ih.sent k hk], ih.quiet⟩
        · exact ih
      · simp only [if_neg hj, processes_snoc, Process.next, Nat.add_zero]
        generalize processes Task.step app reqs (leavingOut l i) = s' at ih
        rw [ih.lost j hj, ih.tasks j hj]
        split
        · split
          · exact ih
          · exact ⟨ih.db, ih.tasks, ih.begun, ih.lost, fun k hk => by simp only [ih.sent k hk], ih.quiet⟩
        · exact ih
    | kill =>
      simp only [processes_snoc, Process.next, Nat.add_zero]
      generalize processes Task.step app reqs (leavingOut l i) = s' at ih
      exact ⟨ih.db, ih.tasks, ih.begun, fun k hk => by simp only [ih.lost k hk, ih.begun k hk, ih.sent k hk], ih.sent,
        ih.quiet⟩

/-- C110: a request that is cut off before its first statement that writes (the second or the third of a request for a
challenge, the fourth of a registration, the sixth of a login) leaves no trace: the tables, and the replies to the others,
are as without it.  Missing: one that is cut off between that and its reply (`C110_refuted`); `NoTrace` is the full
statement. -/
theorem C110_partial {i : ι} (h : attempts ticks i ≤ match reqs i with
      | .registrationRequest .. => 1
      | .authenticationRequest .. => 2
      | .registrationResponse .. => 3
      | .authenticationResponse .. => 5) :
    tablesAfter Task.step app reqs ticks = tablesAfter Task.step app reqs (leavingOut ticks i) ∧
    ∀ j, j ≠ i → received Task.step app reqs ticks j = received Task.step app reqs (leavingOut ticks i) j := by
  have hb := sameBut (ticks := ticks) (quiet_task app (reqs i)) (by
    rw [reads.eq_def]
    exact h)
  refine ⟨hb.db, fun j hj => ?_⟩
  rw [received, received, hb.sent j hj, outcome, outcome, hb.tasks j hj]

end WebAuthn.Flask
