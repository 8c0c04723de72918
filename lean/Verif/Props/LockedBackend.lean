import Verif.Model.LockedBackend
import Verif.Spec.LockedBackend
import Verif.Props.Interaction

/-!
# C48: handlers behind locks
-/

namespace WebAuthn.Props

open WebAuthn Spec

variable {σ ι κ : Type} [DecidableEq ι] [DecidableEq κ] {env : Env} {reg : Registrar σ}
  {count : σ → Bytes → WithBot Int} {lock : Bytes → κ}

/-! ## One handler that has its lock -/

/-- How far the handler of a request may have come. -/
inductive At (env : Env) (count : σ → Bytes → WithBot Int) (s : σ) : Request → Prog → Prop
  | done (q : Request) (r : Py Unit) : At env count s q (.done r)
  | register (a : AttestationArgs) (r : AttestationRecord) : r.credential = a.credential →
      At env count s (.registration a) (.writeAttestation r fun w => .done (finalise (checkWrite w)))
  | read (a : AssertionArgs) (allowed : List Origin) : assertionPre env a = .ok allowed →
      At env count s (.authentication a) (.read a.credential.rawId (assertionProgFrom env a allowed))
  | write (a : AssertionArgs) (r : AssertionRecord) (cd : CredentialData) : r.credential = a.credential →
      AssertionOk env a cd r.user r.rp r.authData →
      count s a.credential.rawId < ((r.authData.signCount : Int) : WithBot Int) →
      At env count s (.authentication a) (.writeAssertion r fun w => .done (finalise (checkWrite w)))

theorem at_prog (s : σ) (q : Request) : At env count s q (prog env q) := by
  cases q with
  | registration a =>
    simp only [prog, attestationProg]
    split
    · exact .done _ _
    · next r h =>
      obtain ⟨-, -, -, h1, -⟩ := attestationChecks_ok_iff.mp h
      exact .register a r h1
  | authentication a =>
    simp only [prog, assertionProg]
    split
    · exact .done _ _
    · next l h => exact .read a l h

theorem at_same {s s' : σ} {q : Request} {p : Prog} (h : At env count s q p)
    (hs : count s' q.rawId = count s q.rawId) : At env count s' q p := by
  cases h with
  | done => exact .done _ _
  | register a r h => exact .register a r h
  | read a l h => exact .read a l h
  | write a r cd h1 h2 h3 => exact .write a r cd h1 h2 (by rw [show count s' a.credential.rawId = _ from hs]; exact h3)

omit [DecidableEq κ] in
/-- One registrar call: no counter is lowered, those with other locks stay, and if the handler has
just accepted then its counter exceeded the stored one before and does not after. -/
theorem at_step (laws : StoresCounters reg count) (apart : KeepsApart reg count lock) {s : σ}
    {q : Request} (hq : q.Strict) {p : Prog} (h : At env count s q p) :
    At env count (p.step reg s).2 q (p.step reg s).1 ∧
    (∀ i, count s i ≤ count (p.step reg s).2 i) ∧
    (∀ i, lock q.rawId ≠ lock i → count (p.step reg s).2 i = count s i) ∧
    ∀ a, q = .authentication a → p ≠ .done (.ok ()) → (p.step reg s).1 = .done (.ok ()) →
      ∃ n : Nat, HasCounter a.credential n ∧ count s a.credential.rawId < ((n : Int) : WithBot Int) ∧
        ((n : Int) : WithBot Int) ≤ count (p.step reg s).2 a.credential.rawId := by
  cases h with
  | done q r => exact ⟨.done _ _, fun _ => le_refl _, fun _ _ => rfl, fun _ _ h1 h2 => absurd h2 h1⟩
  | register a r h =>
    refine ⟨.done _ _, fun i => laws.attestation r s i, fun i hi => apart.attestation r s i ?_, nofun⟩
    rw [h]
    exact hi
  | read a l h =>
    refine ⟨?_, fun i => laws.read _ s i, fun i hi => apart.read _ s i hi, ?_⟩
    · simp only [Prog.step, assertionProgFrom]
      split
      · exact .done _ _
      · next cd hc =>
        split
        · exact .done _ _
        · next r hr =>
          obtain ⟨h1, -⟩ := assertionPre_ok_iff.mp h
          obtain ⟨h3, h4⟩ := (assertionChecks_ok_iff h1).mp hr
          refine .write a r cd h3 h4 ?_
          rw [← laws.read_ok _ _ _ _ (Prod.ext (checkRead_ok_iff.mp hc) rfl)]
          exact counterOk_lt h4 hq
    · intro b hb _ h2
      exfalso
      simp only [Prog.step, assertionProgFrom] at h2
      split at h2
      · simp only [Prog.done.injEq] at h2
        exact finalise_error_ne h2
      · split at h2
        · simp only [Prog.done.injEq] at h2
          exact finalise_error_ne h2
        · cases h2
  | write a r cd h1 h2 h3 =>
    rw [← h1] at h3
    refine ⟨.done _ _, fun i => laws.assertion r s h3 i, fun i hi => apart.assertion r s i ?_, ?_⟩
    · rw [h1]
      exact hi
    · intro b hb _ h4
      cases hb
      have h4 : finalise (checkWrite (reg.registerAssertion r s).1) = .ok () := by
        simpa [Prog.step] using h4
      rw [finalise_ok_iff, checkWrite_ok_iff] at h4
      have h5 := laws.assertion_ok r s _ (Prod.ext h4 rfl)
      rw [h1] at h3 h5
      exact ⟨_, assertionOk_counter h2, h3, h5⟩

/-! ## All of them -/

/-- The registrar has accepted for handler `i`. -/
def Taken (x : LockedSystem ι κ σ) (i : ι) : Prop :=
  x.turns i = .running (.done (.ok ())) ∨ x.turns i = .finished (.ok ())

structure LockInv (env : Env) (count : σ → Bytes → WithBot Int) (lock : Bytes → κ)
    (req : ι → Request) (x : LockedSystem ι κ σ) : Prop where
  holds : ∀ i p, x.turns i = .running p → x.holder (lock (req i).rawId) = some i
  stage : ∀ i p, x.turns i = .running p → At env count x.state (req i) p
  done : ∀ i a, req i = .authentication a → Taken x i →
    ∃ n : Nat, HasCounter a.credential n ∧ ((n : Int) : WithBot Int) ≤ count x.state a.credential.rawId
  once : ∀ i j a b, i ≠ j → req i = .authentication a → req j = .authentication b →
    Taken x i → Taken x j → a.credential.rawId = b.credential.rawId →
    ∀ n, HasCounter a.credential n → ¬ HasCounter b.credential n
  ordered : ∀ i j a b, req i = .authentication a → req j = .authentication b →
    x.turns i = .finished (.ok ()) → x.turns j = .running (.done (.ok ())) →
    a.credential.rawId = b.credential.rawId →
    ∀ m n, HasCounter a.credential m → HasCounter b.credential n → m < n

omit [DecidableEq ι] [DecidableEq κ] in
theorem lock_unique {req : ι → Request} {x : LockedSystem ι κ σ} (h : LockInv env count lock req x)
    {i j : ι} {p q : Prog} (hi : x.turns i = .running p) (hj : x.turns j = .running q)
    (hl : lock (req i).rawId = lock (req j).rawId) : i = j := by
  have h1 := h.holds i p hi
  have h2 := h.holds j q hj
  rw [hl, h2] at h1
  exact (Option.some.inj h1).symm

omit [DecidableEq ι] [DecidableEq κ] in
theorem lockInv_init (req : ι → Request) (s : σ) :
    LockInv env count lock req ⟨fun _ => .waiting, fun _ => none, s⟩ where
  holds := fun i p h => by cases (show Turn.waiting = _ from h)
  stage := fun i p h => by cases (show Turn.waiting = _ from h)
  done := fun i a _ h => by rcases h with h | h <;> cases (show Turn.waiting = _ from h)
  once := fun i j a b _ _ _ h => by rcases h with h | h <;> cases (show Turn.waiting = _ from h)
  ordered := fun i j a b _ _ h => by cases (show Turn.waiting = _ from h)

/-- Handler `k` gets the lock. -/
theorem lockInv_take {req : ι → Request} {x : LockedSystem ι κ σ} (h : LockInv env count lock req x)
    {k : ι} (hw : x.turns k = .waiting) (hf : x.holder (lock (req k).rawId) = none) :
    LockInv env count lock req ((x.put k (.running (prog env (req k)))).hand (lock (req k).rawId) (some k)) := by
  have tk : ∀ i, Taken ((x.put k (.running (prog env (req k)))).hand (lock (req k).rawId) (some k)) i →
      Taken x i := by
    intro i hi
    by_cases hik : i = k
    · subst hik
      rcases hi with hi | hi
      · simp only [LockedSystem.hand, LockedSystem.put, if_pos, Turn.running.injEq] at hi
        exact absurd hi (prog_not_done _)
      · simp [LockedSystem.hand, LockedSystem.put] at hi
    · simpa [Taken, LockedSystem.hand, LockedSystem.put, hik] using hi
  refine ⟨?_, ?_, fun i a hi ht => h.done i a hi (tk i ht),
    fun i j a b hij hi hj hti htj => h.once i j a b hij hi hj (tk i hti) (tk j htj), ?_⟩
  · intro i p hp
    by_cases hik : i = k
    · subst hik
      simp [LockedSystem.hand, LockedSystem.put]
    · have hp' : x.turns i = .running p := by simpa [LockedSystem.hand, LockedSystem.put, hik] using hp
      have h1 := h.holds i p hp'
      have : lock (req i).rawId ≠ lock (req k).rawId := by
        intro e
        rw [e, hf] at h1
        cases h1
      simp only [LockedSystem.hand, LockedSystem.put, if_neg this]
      exact h1
  · intro i p hp
    by_cases hik : i = k
    · subst hik
      simp only [LockedSystem.hand, LockedSystem.put, if_pos, Turn.running.injEq] at hp
      subst hp
      exact at_prog _ _
    · exact h.stage i p (by simpa [LockedSystem.hand, LockedSystem.put, hik] using hp)
  · intro i j a b hi hj hti htj
    by_cases hjk : j = k
    · subst hjk
      simp only [LockedSystem.hand, LockedSystem.put, if_pos, Turn.running.injEq] at htj
      exact absurd htj (prog_not_done _)
    · by_cases hik : i = k
      · subst hik
        simp [LockedSystem.hand, LockedSystem.put] at hti
      · exact h.ordered i j a b hi hj (by simpa [LockedSystem.hand, LockedSystem.put, hik] using hti)
          (by simpa [LockedSystem.hand, LockedSystem.put, hjk] using htj)

/-- Handler `k`, which has the lock, is done or cut off. -/
theorem lockInv_release {req : ι → Request} {x : LockedSystem ι κ σ} (h : LockInv env count lock req x)
    {k : ι} {p : Prog} (hr : x.turns k = .running p) {t : Turn} (ht : ∀ q, t ≠ .running q)
    (hd : t = .finished (.ok ()) → p = .done (.ok ())) :
    LockInv env count lock req ((x.put k t).hand (lock (req k).rawId) none) := by
  have tk : ∀ i, Taken ((x.put k t).hand (lock (req k).rawId) none) i → Taken x i := by
    intro i hi
    by_cases hik : i = k
    · subst hik
      simp only [Taken, LockedSystem.hand, LockedSystem.put, if_pos] at hi
      rcases hi with hi | hi
      · exact absurd hi (ht _)
      · exact Or.inl (by rw [hr, hd hi])
    · simpa [Taken, LockedSystem.hand, LockedSystem.put, hik] using hi
  have run : ∀ i q, ((x.put k t).hand (lock (req k).rawId) none).turns i = .running q →
      i ≠ k ∧ x.turns i = .running q := by
    intro i q hq
    by_cases hik : i = k
    · subst hik
      simp only [LockedSystem.hand, LockedSystem.put, if_pos] at hq
      exact absurd hq (ht _)
    · exact ⟨hik, by simpa [LockedSystem.hand, LockedSystem.put, hik] using hq⟩
  refine ⟨?_, fun i q hq => h.stage i q (run i q hq).2, fun i a hi ht => h.done i a hi (tk i ht),
    fun i j a b hij hi hj hti htj => h.once i j a b hij hi hj (tk i hti) (tk j htj), ?_⟩
  · intro i q hq
    obtain ⟨hik, hq⟩ := run i q hq
    have : lock (req i).rawId ≠ lock (req k).rawId := fun e => hik (lock_unique h hq hr e)
    simp only [LockedSystem.hand, LockedSystem.put, if_neg this]
    exact h.holds i q hq
  · intro i j a b hi hj hti htj hid
    obtain ⟨hjk, hj2⟩ := run j _ htj
    by_cases hik : i = k
    · refine absurd (lock_unique h hj2 hr ?_) hjk
      rw [← hik, hi, hj]
      exact congrArg lock hid.symm
    · exact h.ordered i j a b hi hj (by simpa [LockedSystem.hand, LockedSystem.put, hik] using hti) hj2 hid

omit [DecidableEq κ] in
/-- Handler `k` is cut off before it has the lock. -/
theorem lockInv_lose {req : ι → Request} {x : LockedSystem ι κ σ} (h : LockInv env count lock req x)
    {k : ι} (hw : x.turns k = .waiting) : LockInv env count lock req (x.put k .lost) := by
  have same : ∀ i t, t ≠ .lost → (x.put k .lost).turns i = t → x.turns i = t := by
    intro i t ht hi
    by_cases hik : i = k
    · subst hik
      simp only [LockedSystem.put, if_pos] at hi
      exact absurd hi.symm ht
    · simpa [LockedSystem.put, hik] using hi
  have tk : ∀ i, Taken (x.put k .lost) i → Taken x i :=
    fun i hi => hi.imp (same i _ (by simp)) (same i _ (by simp))
  exact ⟨fun i p hp => h.holds i p (same i _ (by simp) hp), fun i p hp => h.stage i p (same i _ (by simp) hp),
    fun i a hi ht => h.done i a hi (tk i ht),
    fun i j a b hij hi hj hti htj => h.once i j a b hij hi hj (tk i hti) (tk j htj),
    fun i j a b hi hj hti htj => h.ordered i j a b hi hj (same i _ (by simp) hti) (same j _ (by simp) htj)⟩

omit [DecidableEq κ] in
/-- Handler `k` makes a registrar call. -/
theorem lockInv_call (laws : StoresCounters reg count) (apart : KeepsApart reg count lock)
    {req : ι → Request} (strict : ∀ i, (req i).Strict) {x : LockedSystem ι κ σ}
    (h : LockInv env count lock req x) {k : ι} {p : Prog} (hr : x.turns k = .running p)
    (hp : p ≠ .done (.ok ())) :
    LockInv env count lock req
      { x.put k (.running (p.step reg x.state).1) with state := (p.step reg x.state).2 } := by
  obtain ⟨h1, h2, h3, h4⟩ := at_step laws apart (strict k) (h.stage k p hr)
  have turn : ∀ i, i ≠ k → (x.put k (.running (p.step reg x.state).1)).turns i = x.turns i := by
    intro i hi
    simp [LockedSystem.put, hi]
  have own : (x.put k (.running (p.step reg x.state).1)).turns k = .running (p.step reg x.state).1 := by
    simp [LockedSystem.put]
  -- those that are accepted were accepted before, or have just been
  have tk : ∀ i a, req i = .authentication a →
      Taken { x.put k (.running (p.step reg x.state).1) with state := (p.step reg x.state).2 } i →
      (i ≠ k ∧ Taken x i) ∨ (i = k ∧ ∃ n : Nat, HasCounter a.credential n ∧
        count x.state a.credential.rawId < ((n : Int) : WithBot Int) ∧
        ((n : Int) : WithBot Int) ≤ count (p.step reg x.state).2 a.credential.rawId) := by
    intro i a hi ht
    by_cases hik : i = k
    · subst hik
      refine Or.inr ⟨rfl, h4 a hi hp ?_⟩
      simp only [Taken, own, Turn.running.injEq, reduceCtorEq, or_false] at ht
      exact ht
    · refine Or.inl ⟨hik, ?_⟩
      simpa only [Taken, turn i hik] using ht
  refine ⟨?_, ?_, ?_, ?_, ?_⟩
  · intro i q hq
    by_cases hik : i = k
    · subst hik
      exact h.holds i p hr
    · exact h.holds i q ((turn i hik).symm.trans hq)
  · intro i q hq
    by_cases hik : i = k
    · subst hik
      rw [show _ = _ from own] at hq
      simp only [Turn.running.injEq] at hq
      subst hq
      exact h1
    · have hq : x.turns i = .running q := (turn i hik).symm.trans hq
      refine at_same (h.stage i q hq) (h3 _ fun e => hik (lock_unique h hq hr e.symm))
  · intro i a hi ht
    rcases tk i a hi ht with ⟨-, ht⟩ | ⟨-, n, g1, -, g2⟩
    · obtain ⟨n, g1, g2⟩ := h.done i a hi ht
      exact ⟨n, g1, g2.trans (h2 _)⟩
    · exact ⟨n, g1, g2⟩
  · intro i j a b hij hi hj hti htj hid n hna hnb
    rcases tk i a hi hti with ⟨-, ti⟩ | ⟨ei, m, g1, g2, -⟩
    · rcases tk j b hj htj with ⟨-, tj⟩ | ⟨-, m, g1, g2, -⟩
      · exact h.once i j a b hij hi hj ti tj hid n hna hnb
      · obtain ⟨q, g3, g4⟩ := h.done i a hi ti
        rw [hasCounter_unique g3 hna] at g4
        rw [hasCounter_unique g1 hnb, ← hid] at g2
        exact absurd (g4.trans_lt g2) (lt_irrefl _)
    · rcases tk j b hj htj with ⟨-, tj⟩ | ⟨ej, -⟩
      · obtain ⟨q, g3, g4⟩ := h.done j b hj tj
        rw [hasCounter_unique g3 hnb] at g4
        rw [hasCounter_unique g1 hna, hid] at g2
        exact absurd (g4.trans_lt g2) (lt_irrefl _)
      · exact hij (ei.trans ej.symm)
  · intro i j a b hi hj hti htj hid m n hm hn
    have hik : i ≠ k := by
      intro e
      rw [e] at hti
      cases own.symm.trans hti
    have ti : x.turns i = .finished (.ok ()) := (turn i hik).symm.trans hti
    rcases tk j b hj (Or.inl htj) with ⟨hjk, -⟩ | ⟨-, q, g1, g2, -⟩
    · exact h.ordered i j a b hi hj ti ((turn j hjk).symm.trans htj) hid m n hm hn
    · obtain ⟨q', g3, g4⟩ := h.done i a hi (Or.inr ti)
      rw [hasCounter_unique g3 hm] at g4
      rw [hasCounter_unique g1 hn, ← hid] at g2
      have := WithBot.coe_lt_coe.mp (g4.trans_lt g2)
      omega

/-- The lock of a request. -/
abbrev lockOf (lock : Bytes → κ) (req : ι → Request) (i : ι) : κ := lock (req i).rawId

theorem lockInv_move (laws : StoresCounters reg count) (apart : KeepsApart reg count lock)
    {req : ι → Request} (strict : ∀ i, (req i).Strict) {x : LockedSystem ι κ σ}
    (h : LockInv env count lock req x) (m : Move ι) :
    LockInv env count lock req (x.move reg (lockOf lock req) (fun i => prog env (req i)) m) := by
  cases m with
  | go k =>
    simp only [LockedSystem.move, LockedSystem.go]
    split
    · next hw =>
      split
      · exact h
      · next hf => exact lockInv_take h hw hf
    · next r hr => exact lockInv_release h hr nofun (by rintro ⟨⟩; rfl)
    · next p hp hr =>
      exact lockInv_call laws apart strict h hr (fun e => hp _ e)
    · exact h
    · exact h
  | cut k =>
    simp only [LockedSystem.move, LockedSystem.cut]
    split
    · next hw =>
      exact lockInv_lose h hw
    · next hr => exact lockInv_release h hr nofun nofun
    · exact h
    · exact h

theorem runLocked_snoc (lock : ι → κ) (progs : ι → Prog) (s : σ) (moves : List (Move ι)) (m : Move ι) :
    runLocked reg lock progs s (moves ++ [m]) = (runLocked reg lock progs s moves).move reg lock progs m := by
  simp [runLocked]

theorem lockInv_run (laws : StoresCounters reg count) (apart : KeepsApart reg count lock)
    {req : ι → Request} (strict : ∀ i, (req i).Strict) (s : σ) (moves : List (Move ι)) :
    LockInv env count lock req (runLocked reg (lockOf lock req) (fun i => prog env (req i)) s moves) := by
  induction moves using List.reverseRecOn with
  | nil => exact lockInv_init req s
  | append_singleton moves m ih =>
    rw [runLocked_snoc]
    exact lockInv_move laws apart strict ih m

theorem lockedResult_iff {lock : ι → κ} {progs : ι → Prog} {s : σ} {moves : List (Move ι)} {i : ι}
    {r : Py Unit} : lockedResult reg lock progs s moves i = some r ↔
      (runLocked reg lock progs s moves).turns i = .finished r := by
  unfold lockedResult
  split
  · next h => rw [h]; simp
  · next h =>
    constructor
    · nofun
    · exact fun e => absurd e (h r)

/-- C48, repaired: with a lock per credential, or a coarser one, acceptances with one credential
have different counters, whatever handlers overlap, and wherever they are cut off. -/
theorem C48_locked_distinct (laws : StoresCounters reg count) (apart : KeepsApart reg count lock)
    {req : ι → Request} (strict : ∀ i, (req i).Strict) (s : σ) :
    DistinctCounters req (lockedResult reg (lockOf lock req) (fun i => prog env (req i)) s) := by
  intro moves i j a b hij hi hj hid hri hrj
  rw [lockedResult_iff] at hri hrj
  have inv := lockInv_run (env := env) laws apart strict s moves
  obtain ⟨m, h1, -⟩ := inv.done i a hi (Or.inr hri)
  obtain ⟨n, h2, -⟩ := inv.done j b hj (Or.inr hrj)
  refine ⟨m, n, h1, h2, ?_⟩
  rintro rfl
  exact inv.once i j a b hij hi hj (Or.inr hri) (Or.inr hrj) hid m h1 h2

/-- C48, repaired: no response is accepted twice. -/
theorem C48_locked_never_twice (laws : StoresCounters reg count) (apart : KeepsApart reg count lock)
    {req : ι → Request} (strict : ∀ i, (req i).Strict) (s : σ) :
    NeverTwice req (lockedResult reg (lockOf lock req) (fun i => prog env (req i)) s) := by
  intro moves i j a b hij hi hj hid hresp hri hrj
  obtain ⟨m, n, ⟨c, r, g, u, h1, h2⟩, h3, h4⟩ :=
    C48_locked_distinct (env := env) laws apart strict s moves i j a b hij hi hj hid hri hrj
  exact h4 (hasCounter_unique ⟨c, r, g, u, hresp.symm.trans h1, h2⟩ h3)

theorem finished_stays {lock : ι → κ} {progs : ι → Prog} {x : LockedSystem ι κ σ} {i : ι} {r : Py Unit}
    (h : x.turns i = .finished r) (m : Move ι) : (x.move reg lock progs m).turns i = .finished r := by
  have put : ∀ k t, x.turns k ≠ .finished r → (x.put k t).turns i = .finished r := by
    intro k t hk
    have : i ≠ k := fun e => hk (e ▸ h)
    simpa [LockedSystem.put, this] using h
  cases m with
  | go k =>
    simp only [LockedSystem.move, LockedSystem.go]
    split
    · next hk =>
      split
      · exact h
      · exact put k _ (by simp [hk])
    · next hk => exact put k _ (by simp [hk])
    · next hk => exact put k _ (by simp [hk])
    · exact h
    · exact h
  | cut k =>
    simp only [LockedSystem.move, LockedSystem.cut]
    split
    · next hk => exact put k _ (by simp [hk])
    · next hk => exact put k _ (by simp [hk])
    · exact h
    · exact h

/-- The counter of a handler that has just accepted exceeded the stored one. -/
theorem newly_taken (laws : StoresCounters reg count) (apart : KeepsApart reg count lock)
    {req : ι → Request} (strict : ∀ i, (req i).Strict) {x : LockedSystem ι κ σ}
    (h : LockInv env count lock req x) {m : Move ι} {j : ι} {b : AssertionArgs}
    (hj : req j = .authentication b) (hn : ¬ Taken x j)
    (ht : Taken (x.move reg (lockOf lock req) (fun i => prog env (req i)) m) j) :
    ∃ n : Nat, HasCounter b.credential n ∧ count x.state b.credential.rawId < ((n : Int) : WithBot Int) := by
  have put : ∀ k t, Taken (x.put k t) j → j = k ∧ (t = .running (.done (.ok ())) ∨ t = .finished (.ok ())) := by
    intro k t ht
    by_cases hjk : j = k
    · subst hjk
      simpa [Taken, LockedSystem.put] using ht
    · exact absurd (by simpa [Taken, LockedSystem.put, hjk] using ht) hn
  cases m with
  | go k =>
    simp only [LockedSystem.move, LockedSystem.go] at ht
    split at ht
    · next hk =>
      split at ht
      · exact absurd ht hn
      · obtain ⟨-, h1 | h1⟩ := put k _ ht
        · simp only [Turn.running.injEq] at h1
          exact absurd h1 (prog_not_done _)
        · cases h1
    · next r hk =>
      obtain ⟨rfl, h1 | h1⟩ := put k _ ht
      · cases h1
      · cases h1
        exact absurd (Or.inl hk) hn
    · next p hp hk =>
      obtain ⟨rfl, h1 | h1⟩ := put k _ ht
      · simp only [Turn.running.injEq] at h1
        obtain ⟨n, h2, h3, -⟩ := (at_step laws apart (strict j) (h.stage j p hk)).2.2.2 b hj
          (fun e => hp _ e) h1
        exact ⟨n, h2, h3⟩
      · cases h1
    · exact absurd ht hn
    · exact absurd ht hn
  | cut k =>
    simp only [LockedSystem.move, LockedSystem.cut] at ht
    split at ht
    · obtain ⟨-, h1 | h1⟩ := put k _ ht <;> cases h1
    · obtain ⟨-, h1 | h1⟩ := put k _ ht <;> cases h1
    · exact absurd ht hn
    · exact absurd ht hn

/-- C48, repaired: the counters of one credential increase. -/
theorem C48_locked_increasing (laws : StoresCounters reg count) (apart : KeepsApart reg count lock)
    {req : ι → Request} (strict : ∀ i, (req i).Strict) (s : σ) :
    IncreasingCounters req (lockedResult reg (lockOf lock req) (fun i => prog env (req i)) s) := by
  intro moves more i j a b hi hj hid hri hnj hrj
  rw [lockedResult_iff] at hri hrj
  have inv := fun moves => lockInv_run (env := env) laws apart strict s moves
  have fin : ∀ more, (runLocked reg (lockOf lock req) (fun i => prog env (req i)) s (moves ++ more)).turns i =
      .finished (.ok ()) := by
    intro more
    induction more using List.reverseRecOn with
    | nil => rw [List.append_nil]; exact hri
    | append_singleton more m ih =>
      rw [← List.append_assoc, runLocked_snoc]
      exact finished_stays ih m
  obtain ⟨m, hm, -⟩ := (inv moves).done i a hi (Or.inr hri)
  obtain ⟨n, hn, -⟩ := (inv (moves ++ more)).done j b hj (Or.inr hrj)
  refine ⟨m, n, hm, hn, ?_⟩
  have key : ∀ more, Taken (runLocked reg (lockOf lock req) (fun i => prog env (req i)) s (moves ++ more)) j →
      m < n := by
    intro more
    induction more using List.reverseRecOn with
    | nil =>
      rw [List.append_nil]
      rintro (h | h)
      · exact (inv moves).ordered i j a b hi hj hri h hid m n hm hn
      · rw [lockedResult_iff.mpr h] at hnj
        cases hnj
    | append_singleton more mv ih =>
      rw [← List.append_assoc, runLocked_snoc]
      intro ht
      by_cases hb : Taken (runLocked reg (lockOf lock req) (fun i => prog env (req i)) s (moves ++ more)) j
      · exact ih hb
      · obtain ⟨n', h1, h2⟩ := newly_taken laws apart strict (inv (moves ++ more)) hj hb ht
        obtain ⟨m', h3, h4⟩ := (inv (moves ++ more)).done i a hi (Or.inr (fin more))
        rw [hasCounter_unique h3 hm] at h4
        rw [hasCounter_unique h1 hn, ← hid] at h2
        have := WithBot.coe_lt_coe.mp (h4.trans_lt h2)
        omega
  exact key more (Or.inr hrj)

/-! ## One lock for all, and any registrar -/

/-- With one lock nothing needs to be known about the counters of other credentials. -/
theorem keepsApart_one (reg : Registrar σ) (count : σ → Bytes → WithBot Int) :
    KeepsApart reg count (fun _ => ()) :=
  ⟨fun _ _ _ h => absurd rfl h, fun _ _ _ h => absurd rfl h, fun _ _ _ h => absurd rfl h⟩

omit [DecidableEq ι] [DecidableEq κ] in
theorem run_step (p : Prog) (s : σ) : (p.step reg s).1.run reg (p.step reg s).2 = p.run reg s := by
  cases p <;> rfl

omit [DecidableEq ι] [DecidableEq κ] in
theorem run_prog (q : Request) (s : σ) : (prog env q).run reg s = q.handle env reg s := by
  cases q with
  | registration a => exact run_attestation env reg a s
  | authentication a => exact run_assertion env reg a s

theorem serve_snoc (rs : List Request) (r : Request) (s : σ) :
    serve env reg (rs ++ [r]) s = (r.handle env reg (serve env reg rs s)).2 := by
  induction rs generalizing s with
  | nil => rfl
  | cons q rs ih => exact ih _

/-- The handlers that have begun, in their order. -/
def begun (reg : Registrar σ) (lock : ι → κ) (progs : ι → Prog) (s : σ) (moves : List (Move ι)) : List ι :=
  (moves.foldl (fun (y : LockedSystem ι κ σ × List ι) m => (y.1.move reg lock progs m,
    match m with
    | .go i => match y.1.turns i, y.1.holder (lock i) with
      | .waiting, none => y.2 ++ [i]
      | _, _ => y.2
    | .cut _ => y.2)) (⟨fun _ => .waiting, fun _ => none, s⟩, [])).2

theorem begun_snoc (lock : ι → κ) (progs : ι → Prog) (s : σ) (moves : List (Move ι)) (m : Move ι) :
    begun reg lock progs s (moves ++ [m]) = match m with
      | .go i => match (runLocked reg lock progs s moves).turns i,
            (runLocked reg lock progs s moves).holder (lock i) with
        | .waiting, none => begun reg lock progs s moves ++ [i]
        | _, _ => begun reg lock progs s moves
      | .cut _ => begun reg lock progs s moves := by
  have key : ∀ moves : List (Move ι), ∀ y : LockedSystem ι κ σ × List ι,
      (moves.foldl (fun (y : LockedSystem ι κ σ × List ι) m => (y.1.move reg lock progs m,
        match m with
        | .go i => match y.1.turns i, y.1.holder (lock i) with
          | .waiting, none => y.2 ++ [i]
          | _, _ => y.2
        | .cut _ => y.2)) y).1 = moves.foldl (LockedSystem.move reg lock progs) y.1 := by
    intro moves
    induction moves with
    | nil => intro y; rfl
    | cons m moves ih => intro y; exact ih _
  unfold begun
  rw [List.foldl_append, List.foldl_cons, List.foldl_nil]
  simp only [key]
  rfl

theorem waiting_before {lock : ι → κ} {progs : ι → Prog} {x : LockedSystem ι κ σ} {i : ι} {m : Move ι}
    (h : (x.move reg lock progs m).turns i = .waiting) : x.turns i = .waiting ∧
      ¬ (m = .go i ∧ x.holder (lock i) = none) := by
  have put : ∀ k t, t ≠ .waiting → (x.put k t).turns i = .waiting → x.turns i = .waiting ∧ i ≠ k := by
    intro k t ht hk
    by_cases hik : i = k
    · subst hik
      simp only [LockedSystem.put, if_pos] at hk
      exact absurd hk ht
    · exact ⟨by simpa [LockedSystem.put, hik] using hk, hik⟩
  cases m with
  | go k =>
    simp only [LockedSystem.move, LockedSystem.go] at h
    split at h
    · next hk =>
      split at h
      · next hh =>
        refine ⟨h, ?_⟩
        rintro ⟨e, hn⟩
        cases e
        rw [hn] at hh
        cases hh
      · obtain ⟨h1, h2⟩ := put k _ (by simp) h
        exact ⟨h1, fun e => h2 (by cases e.1; rfl)⟩
    · obtain ⟨h1, h2⟩ := put k _ (by simp) h
      exact ⟨h1, fun e => h2 (by cases e.1; rfl)⟩
    · obtain ⟨h1, h2⟩ := put k _ (by simp) h
      exact ⟨h1, fun e => h2 (by cases e.1; rfl)⟩
    · next hk => exact ⟨h, fun e => by cases e.1; rw [hk] at h; cases h⟩
    · next hk => exact ⟨h, fun e => by cases e.1; rw [hk] at h; cases h⟩
  | cut k =>
    simp only [LockedSystem.move, LockedSystem.cut] at h
    refine ⟨?_, fun e => by cases e.1⟩
    split at h
    · exact (put k _ (by simp) h).1
    · exact (put k _ (by simp) h).1
    · exact h
    · exact h

/-- Whoever begins has not begun before. -/
theorem begun_grows (lock : ι → κ) (progs : ι → Prog) (s : σ) (moves : List (Move ι)) (m : Move ι) :
    begun reg lock progs s (moves ++ [m]) = begun reg lock progs s moves ∨
    ∃ i, m = .go i ∧ (runLocked reg lock progs s moves).turns i = .waiting ∧
      (runLocked reg lock progs s moves).holder (lock i) = none ∧
      begun reg lock progs s (moves ++ [m]) = begun reg lock progs s moves ++ [i] := by
  rw [begun_snoc]
  cases m with
  | cut k => exact Or.inl rfl
  | go k =>
    simp only
    split
    · next h1 h2 => exact Or.inr ⟨k, rfl, h1, h2, rfl⟩
    · exact Or.inl rfl

/-- Whoever waits has not begun. -/
theorem waiting_not_begun (lock : ι → κ) (progs : ι → Prog) (s : σ) (moves : List (Move ι)) (i : ι)
    (h : (runLocked reg lock progs s moves).turns i = .waiting) : i ∉ begun reg lock progs s moves := by
  induction moves using List.reverseRecOn with
  | nil => exact List.not_mem_nil
  | append_singleton moves m ih =>
    rw [runLocked_snoc] at h
    obtain ⟨h1, h2⟩ := waiting_before h
    rcases begun_grows (reg := reg) lock progs s moves m with h3 | ⟨k, rfl, -, h4, h3⟩
    · rw [h3]
      exact ih h1
    · rw [h3, List.mem_append, List.mem_singleton, not_or]
      refine ⟨ih h1, ?_⟩
      rintro rfl
      exact h2 ⟨rfl, h4⟩

/-- The state is that after the handlers that have begun, one after the other, but for the last if
it has the lock. -/
structure SerialInv (env : Env) (reg : Registrar σ) (s : σ) (req : ι → Request)
    (x : LockedSystem ι Unit σ) (order : List ι) : Prop where
  running : ∀ i p, x.turns i = .running p → x.holder () = some i
  free : x.holder () = none → x.state = serve env reg (order.map req) s
  held : ∀ i, x.holder () = some i → ∃ pre p, order = pre ++ [i] ∧ x.turns i = .running p ∧
    p.run reg x.state = (req i).handle env reg (serve env reg (pre.map req) s)
  finished : ∀ i r, x.turns i = .finished r → ∃ pre post, order = pre ++ i :: post ∧
    ((req i).handle env reg (serve env reg (pre.map req) s)).1 = r

theorem serialInv_run (req : ι → Request) (s : σ) (moves : List (Move ι))
    (hgo : ∀ m ∈ moves, ∃ i, m = .go i) :
    SerialInv env reg s req (runLocked reg (fun _ => ()) (fun i => prog env (req i)) s moves)
      (begun reg (fun _ => ()) (fun i => prog env (req i)) s moves) := by
  induction moves using List.reverseRecOn with
  | nil =>
    refine ⟨fun i p h => ?_, fun _ => rfl, fun i h => ?_, fun i r h => ?_⟩
    · cases (show Turn.waiting = _ from h)
    · cases (show none = some i from h)
    · cases (show Turn.waiting = _ from h)
  | append_singleton moves m ih =>
    obtain ⟨k, rfl⟩ := hgo m (by simp)
    replace ih := ih fun m hm => hgo m (by simp [hm])
    rw [runLocked_snoc, begun_snoc]
    generalize runLocked reg (fun _ => ()) (fun i => prog env (req i)) s moves = x at *
    generalize begun reg (fun _ => ()) (fun i => prog env (req i)) s moves = order at *
    have other : ∀ t i, i ≠ k → (x.put k t).turns i = x.turns i := by
      intro t i hi
      simp [LockedSystem.put, hi]
    have own : ∀ t, (x.put k t).turns k = t := by
      intro t
      simp [LockedSystem.put]
    simp only [LockedSystem.move, LockedSystem.go]
    split
    · next hw =>
      split
      · next j hh =>
        simp only [hw, hh]
        exact ih
      · next hh =>
        simp only [hw, hh]
        refine ⟨?_, ?_, ?_, ?_⟩
        · intro i p hp
          by_cases hik : i = k
          · simp [LockedSystem.hand, hik]
          · have := ih.running i p ((other _ i hik).symm.trans hp)
            rw [hh] at this
            cases this
        · intro h
          simp [LockedSystem.hand] at h
        · intro i hi
          obtain rfl : k = i := by simpa [LockedSystem.hand] using hi
          refine ⟨order, _, rfl, own _, ?_⟩
          rw [run_prog]
          exact congrArg _ (ih.free hh)
        · intro i r hr
          have hik : i ≠ k := by
            rintro rfl
            cases (own _).symm.trans hr
          obtain ⟨pre, post, h1, h2⟩ := ih.finished i r ((other _ i hik).symm.trans hr)
          exact ⟨pre, post ++ [k], by simp [h1], h2⟩
    · next r hr =>
      simp only [hr]
      obtain ⟨pre, p, h1, h2, h3⟩ := ih.held k (ih.running k _ hr)
      rw [hr] at h2
      cases h2
      have h4 : (r, x.state) = (req k).handle env reg (serve env reg (pre.map req) s) := h3
      refine ⟨?_, ?_, ?_, ?_⟩
      · intro i p hp
        have hik : i ≠ k := by
          rintro rfl
          cases (own _).symm.trans hp
        have := ih.running i p ((other _ i hik).symm.trans hp)
        rw [ih.running k _ hr] at this
        exact absurd (Option.some.inj this).symm hik
      · intro _
        rw [h1, List.map_append, List.map_singleton, serve_snoc, ← h4]
        rfl
      · intro i hi
        simp [LockedSystem.hand] at hi
      · intro i r' hr'
        by_cases hik : i = k
        · subst hik
          cases (own _).symm.trans hr'
          exact ⟨pre, [], h1, by rw [← h4]⟩
        · exact ih.finished i r' ((other _ i hik).symm.trans hr')
    · next p hp hr =>
      simp only [hr]
      obtain ⟨pre, p', h1, h2, h3⟩ := ih.held k (ih.running k _ hr)
      rw [hr] at h2
      cases h2
      refine ⟨?_, ?_, ?_, ?_⟩
      · intro i p' hp'
        by_cases hik : i = k
        · subst hik
          exact ih.running i _ hr
        · exact ih.running i p' ((other _ i hik).symm.trans hp')
      · intro h
        cases (ih.running k _ hr).symm.trans (show x.holder () = none from h)
      · intro i hi
        have : x.holder () = some i := hi
        rw [ih.running k _ hr] at this
        cases this
        exact ⟨pre, _, h1, own _, (run_step _ _).trans h3⟩
      · intro i r hr'
        have hik : i ≠ k := by
          rintro rfl
          cases (own _).symm.trans hr'
        exact ih.finished i r ((other _ i hik).symm.trans hr')
    · next hr =>
      simp only [hr]
      exact ih
    · next hr =>
      simp only [hr]
      exact ih

/-- C48, repaired: with one lock for all, and whatever the registrar does, the handlers return and
raise what they would one after the other. -/
theorem C48_locked_serial (req : ι → Request) (s : σ) :
    OneByOne env reg s req (lockedResult reg (fun _ => ()) (fun i => prog env (req i)) s)
      (fun m : Move ι => ∃ i, m = .go i) := by
  refine ⟨begun reg (fun _ => ()) (fun i => prog env (req i)) s, rfl, ?_, ?_⟩
  · intro moves m
    rcases begun_grows (reg := reg) (fun _ => ()) (fun i => prog env (req i)) s moves m with
      h | ⟨i, -, h1, -, h2⟩
    · exact Or.inl h
    · exact Or.inr ⟨i, waiting_not_begun _ _ _ _ _ h1, h2⟩
  · intro moves hgo i r hr
    exact (serialInv_run req s moves hgo).finished i r (lockedResult_iff.mp hr)

/-! ## Nobody waits for ever -/

/-- The locks are with handlers that run. -/
def Sound (lock : ι → κ) (x : LockedSystem ι κ σ) : Prop :=
  (∀ i p, x.turns i = .running p → x.holder (lock i) = some i) ∧
  ∀ c i, x.holder c = some i → lock i = c ∧ ∃ p, x.turns i = .running p

theorem sound_move {lock : ι → κ} {progs : ι → Prog} {x : LockedSystem ι κ σ} (h : Sound lock x)
    (m : Move ι) : Sound lock (x.move reg lock progs m) := by
  obtain ⟨h1, h2⟩ := h
  have other : ∀ k t i, i ≠ k → (x.put k t).turns i = x.turns i := by
    intro k t i hi
    simp [LockedSystem.put, hi]
  have own : ∀ k t, (x.put k t).turns k = t := by
    intro k t
    simp [LockedSystem.put]
  have release : ∀ k p t, x.turns k = .running p → (∀ q, t ≠ .running q) →
      Sound lock ((x.put k t).hand (lock k) none) := by
    intro k p t hk ht
    constructor
    · intro i q hq
      have hik : i ≠ k := by
        rintro rfl
        exact ht q ((own i t).symm.trans hq)
      have h3 := h1 i q ((other k t i hik).symm.trans hq)
      have : lock i ≠ lock k := by
        intro e
        rw [e, h1 k p hk] at h3
        exact hik (Option.some.inj h3).symm
      simp only [LockedSystem.hand, if_neg this]
      exact h3
    · intro c i hi
      by_cases hc : c = lock k
      · simp [LockedSystem.hand, hc] at hi
      · have h3 : x.holder c = some i := by simpa [LockedSystem.hand, LockedSystem.put, hc] using hi
        obtain ⟨h4, q, h5⟩ := h2 c i h3
        have hik : i ≠ k := by
          rintro rfl
          exact hc h4.symm
        exact ⟨h4, q, (other k t i hik).trans h5⟩
  have keep : ∀ k t, (∀ p, x.turns k ≠ .running p) → (∀ p, t ≠ .running p) → Sound lock (x.put k t) := by
    intro k t hk ht
    constructor
    · intro i q hq
      have hik : i ≠ k := by
        rintro rfl
        exact ht q ((own i t).symm.trans hq)
      exact h1 i q ((other k t i hik).symm.trans hq)
    · intro c i hi
      obtain ⟨h4, q, h5⟩ := h2 c i hi
      have hik : i ≠ k := by
        rintro rfl
        exact hk q h5
      exact ⟨h4, q, (other k t i hik).trans h5⟩
  cases m with
  | go k =>
    simp only [LockedSystem.move, LockedSystem.go]
    split
    · next hw =>
      split
      · exact ⟨h1, h2⟩
      · next hh =>
        constructor
        · intro i q hq
          by_cases hik : i = k
          · simp [LockedSystem.hand, hik]
          · have h3 := h1 i q ((other k _ i hik).symm.trans hq)
            have : lock i ≠ lock k := by
              intro e
              rw [e, hh] at h3
              cases h3
            simp only [LockedSystem.hand, if_neg this]
            exact h3
        · intro c i hi
          by_cases hc : c = lock k
          · obtain rfl : k = i := by simpa [LockedSystem.hand, hc] using hi
            exact ⟨hc.symm, _, own k _⟩
          · have h3 : x.holder c = some i := by simpa [LockedSystem.hand, LockedSystem.put, hc] using hi
            obtain ⟨h4, q, h5⟩ := h2 c i h3
            have hik : i ≠ k := by
              rintro rfl
              exact hc h4.symm
            exact ⟨h4, q, (other k _ i hik).trans h5⟩
    · next hr => exact release k _ _ hr nofun
    · next p hp hr =>
      constructor
      · intro i q hq
        by_cases hik : i = k
        · rw [hik]
          exact h1 k _ hr
        · exact h1 i q ((other k _ i hik).symm.trans hq)
      · intro c i hi
        obtain ⟨h4, q, h5⟩ := h2 c i hi
        by_cases hik : i = k
        · subst hik
          exact ⟨h4, _, own i _⟩
        · exact ⟨h4, q, (other k _ i hik).trans h5⟩
    · exact ⟨h1, h2⟩
    · exact ⟨h1, h2⟩
  | cut k =>
    simp only [LockedSystem.move, LockedSystem.cut]
    split
    · next hw => exact keep k _ (by simp [hw]) nofun
    · next hr => exact release k _ _ hr nofun
    · exact ⟨h1, h2⟩
    · exact ⟨h1, h2⟩

theorem sound_run (lock : ι → κ) (progs : ι → Prog) (s : σ) (moves : List (Move ι)) :
    Sound lock (runLocked reg lock progs s moves) := by
  induction moves using List.reverseRecOn with
  | nil =>
    refine ⟨fun i p h => ?_, fun c i h => ?_⟩
    · cases (show Turn.waiting = _ from h)
    · cases (show none = some i from h)
  | append_singleton moves m ih =>
    rw [runLocked_snoc]
    exact sound_move ih m

theorem advance {lock : ι → κ} {progs : ι → Prog} {p : Prog} {s : σ} {moves : List (Move ι)} {i : ι}
    (h : (runLocked reg lock progs s moves).turns i = .running p) (hp : ∀ r, p ≠ .done r) :
    (runLocked reg lock progs s (moves ++ [.go i])).turns i =
        .running (p.step reg (runLocked reg lock progs s moves).state).1 ∧
      (runLocked reg lock progs s (moves ++ [.go i])).state =
        (p.step reg (runLocked reg lock progs s moves).state).2 ∧
      ∀ j, j ≠ i → (runLocked reg lock progs s (moves ++ [.go i])).turns j =
        (runLocked reg lock progs s moves).turns j := by
  rw [runLocked_snoc]
  cases p with
  | done r => exact absurd rfl (hp r)
  | _ =>
    simp only [LockedSystem.move, LockedSystem.go, h]
    exact ⟨by simp [LockedSystem.put], by simp, fun j hj => by simp [LockedSystem.put, hj]⟩

/-- A handler that has the lock comes to its end, with the result of an uninterrupted run, if it
goes on. -/
def Finishes (reg : Registrar σ) (lock : ι → κ) (progs : ι → Prog) (p : Prog) : Prop :=
  ∀ (s : σ) (moves : List (Move ι)) (i : ι), (runLocked reg lock progs s moves).turns i = .running p →
    ∃ n, (runLocked reg lock progs s (moves ++ List.replicate n (.go i))).turns i =
        .finished (p.run reg (runLocked reg lock progs s moves).state).1 ∧
      (runLocked reg lock progs s (moves ++ List.replicate n (.go i))).holder (lock i) = none ∧
      (runLocked reg lock progs s (moves ++ List.replicate n (.go i))).state =
        (p.run reg (runLocked reg lock progs s moves).state).2 ∧
      ∀ j, j ≠ i → (runLocked reg lock progs s (moves ++ List.replicate n (.go i))).turns j =
        (runLocked reg lock progs s moves).turns j

theorem finishes {lock : ι → κ} {progs : ι → Prog} (p : Prog) : Finishes reg lock progs p := by
  have next : ∀ p : Prog, (∀ r, p ≠ .done r) → (∀ s, Finishes reg lock progs (p.step reg s).1) →
      Finishes reg lock progs p := by
    intro p hp ih s moves i h
    obtain ⟨h1, h2, h3⟩ := advance h hp
    obtain ⟨n, g1, g2, g3, g4⟩ := ih _ s (moves ++ [.go i]) i h1
    refine ⟨n + 1, ?_⟩
    rw [List.append_assoc, List.singleton_append, ← List.replicate_succ] at g1 g2 g3 g4
    rw [h2, run_step] at g1 g3
    exact ⟨g1, g2, g3, fun j hj => (g4 j hj).trans (h3 j hj)⟩
  induction p with
  | done r =>
    intro s moves i h
    refine ⟨1, ?_⟩
    rw [List.replicate_one, runLocked_snoc]
    simp only [LockedSystem.move, LockedSystem.go, h]
    refine ⟨by simp [LockedSystem.hand, LockedSystem.put, Prog.run], by simp [LockedSystem.hand],
      rfl, fun j hj => by simp [LockedSystem.hand, LockedSystem.put, hj]⟩
  | read id k ih => exact next _ nofun fun s => ih _
  | writeAttestation r k ih => exact next _ nofun fun s => ih _
  | writeAssertion r k ih => exact next _ nofun fun s => ih _

/-- C48, repaired: whatever has happened, a handler that was not cut off comes to its end if the
handler that has its lock, and then it, go on; and if the lock is free then it does what the handler
of the code does. -/
theorem C48_locked_progress (lock : ι → κ) (req : ι → Request) (s : σ) (moves : List (Move ι)) (i : ι)
    (hi : (runLocked reg lock (fun i => prog env (req i)) s moves).turns i = .waiting) :
    (∃ more, lockedResult reg lock (fun i => prog env (req i)) s (moves ++ more) i ≠ none) ∧
    ((runLocked reg lock (fun i => prog env (req i)) s moves).holder (lock i) = none →
      ∃ n, lockedResult reg lock (fun i => prog env (req i)) s (moves ++ List.replicate n (.go i)) i =
          some ((req i).handle env reg (runLocked reg lock (fun i => prog env (req i)) s moves).state).1 ∧
        (runLocked reg lock (fun i => prog env (req i)) s (moves ++ List.replicate n (.go i))).state =
          ((req i).handle env reg (runLocked reg lock (fun i => prog env (req i)) s moves).state).2) := by
  have free : ∀ moves, (runLocked reg lock (fun i => prog env (req i)) s moves).turns i = .waiting →
      (runLocked reg lock (fun i => prog env (req i)) s moves).holder (lock i) = none →
      ∃ n, lockedResult reg lock (fun i => prog env (req i)) s (moves ++ List.replicate n (.go i)) i =
          some ((req i).handle env reg (runLocked reg lock (fun i => prog env (req i)) s moves).state).1 ∧
        (runLocked reg lock (fun i => prog env (req i)) s (moves ++ List.replicate n (.go i))).state =
          ((req i).handle env reg (runLocked reg lock (fun i => prog env (req i)) s moves).state).2 := by
    intro moves hw hf
    have h1 : (runLocked reg lock (fun i => prog env (req i)) s (moves ++ [.go i])).turns i =
          .running (prog env (req i)) ∧
        (runLocked reg lock (fun i => prog env (req i)) s (moves ++ [.go i])).state =
          (runLocked reg lock (fun i => prog env (req i)) s moves).state := by
      rw [runLocked_snoc]
      simp only [LockedSystem.move, LockedSystem.go, hw, hf]
      exact ⟨by simp [LockedSystem.hand, LockedSystem.put], rfl⟩
    obtain ⟨n, g1, -, g3, -⟩ := finishes _ s _ i h1.1
    refine ⟨n + 1, ?_⟩
    rw [List.append_assoc, List.singleton_append, ← List.replicate_succ] at g1 g3
    rw [h1.2, run_prog] at g1 g3
    exact ⟨lockedResult_iff.mpr g1, g3⟩
  refine ⟨?_, free moves hi⟩
  cases hf : (runLocked reg lock (fun i => prog env (req i)) s moves).holder (lock i) with
  | none =>
    obtain ⟨n, h, -⟩ := free moves hi hf
    exact ⟨_, by rw [h]; nofun⟩
  | some j =>
    obtain ⟨hl, p, hp⟩ := (sound_run (reg := reg) lock (fun i => prog env (req i)) s moves).2 _ _ hf
    obtain ⟨n, -, g2, -, g4⟩ := finishes p s moves j hp
    have hij : i ≠ j := by
      rintro rfl
      rw [hi] at hp
      cases hp
    obtain ⟨n', h, -⟩ := free _ ((g4 i hij).trans hi) (hl ▸ g2)
    exact ⟨List.replicate n (.go j) ++ List.replicate n' (.go i), by rw [← List.append_assoc, h]; nofun⟩

/-- C48, repaired: a handler that comes first, and is not cut off, does what it would without a
lock. -/
theorem C48_locked_serves (lock : ι → κ) (req : ι → Request) (s : σ) (i : ι) :
    ∃ n, lockedResult reg lock (fun i => prog env (req i)) s (List.replicate n (.go i)) i =
      some ((req i).handle env reg s).1 := by
  obtain ⟨n, h, -⟩ := (C48_locked_progress (env := env) (reg := reg) lock req s [] i rfl).2 rfl
  exact ⟨n, h⟩

theorem result_stays {lock : ι → κ} {progs : ι → Prog} {s : σ} {moves : List (Move ι)} {i : ι} {r : Py Unit}
    (h : lockedResult reg lock progs s moves i = some r) (more : List (Move ι)) :
    lockedResult reg lock progs s (moves ++ more) i = some r := by
  rw [lockedResult_iff] at *
  induction more using List.reverseRecOn with
  | nil => rwa [List.append_nil]
  | append_singleton more m ih =>
    rw [← List.append_assoc, runLocked_snoc]
    exact finished_stays ih m

/-! ## A case -/

/-- The registrar of `Demo`, which reads and writes in separate steps, with a lock per credential. -/
theorem demo_apart : KeepsApart Demo.registrar demoCount (fun id : Bytes => id) where
  read := fun _ _ _ _ => rfl
  attestation := fun r s i hi => by
    simp only [Demo.registrar]
    split
    · rfl
    · split
      · rfl
      · rw [demoCount_cons, if_neg hi]
  assertion := fun r s i hi => by
    simp only [Demo.registrar]
    split
    · rfl
    · rw [demoCount_cons, if_neg hi]

/-- Two handlers are given the same response, as in `C48_replay_refuted`: one of them accepts, and
the other never does. -/
example (req : Bool → Request) (hreq : ∀ i, req i = .authentication Demo.authArgs) :
    ∃ moves : List (Move Bool), ∀ more,
      lockedResult Demo.registrar (lockOf (fun id => id) req) (fun i => prog Demo.env (req i))
        [(Demo.credId, Demo.stored 1)] (moves ++ more) true = some (.ok ()) ∧
      lockedResult Demo.registrar (lockOf (fun id => id) req) (fun i => prog Demo.env (req i))
        [(Demo.credId, Demo.stored 1)] (moves ++ more) false ≠ some (.ok ()) := by
  obtain ⟨n, h⟩ := C48_locked_serves (env := Demo.env) (reg := Demo.registrar) (lockOf (fun id => id) req) req
    [(Demo.credId, Demo.stored 1)] true
  have h1 : ((req true).handle Demo.env Demo.registrar [(Demo.credId, Demo.stored 1)]).1 = .ok () := by
    rw [hreq]
    exact congrArg Prod.fst (Demo.authentication_ok [])
  rw [h1] at h
  refine ⟨List.replicate n (.go true), fun more => ⟨result_stays h more, ?_⟩⟩
  exact C48_locked_never_twice demo_stores demo_apart (fun i => by rw [hreq]; rfl) _ _ true false _ _
    (by decide) (hreq _) (hreq _) rfl rfl (result_stays h more)

end WebAuthn.Props
