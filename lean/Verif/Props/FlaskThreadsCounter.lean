import Verif.Props.FlaskThreads

/-!
# Counters of the example application with requests in progress at the same time (C63)

A login reads the stored counter with its third statement and overwrites it with its
sixth.  Between the two, others may do the same.
-/

namespace WebAuthn.Flask

open WebAuthn WebAuthn.Spec WebAuthn.Props

variable {ι : Type} [DecidableEq ι] {app : App} {reqs : ι → Event} {sched : List ι}

/-! ## How many statements a response takes -/

/-- The request is not answered with success before `n` statements. -/
def Needs : Nat → Task → Prop
  | 0, _ => True
  | _ + 1, .done r => r ≠ success
  | n + 1, .userNamed _ k => ∀ x, Needs n (k x)
  | n + 1, .userOfHandle _ k => ∀ x, Needs n (k x)
  | n + 1, .userOfId _ k => ∀ x, Needs n (k x)
  | n + 1, .credential _ k => ∀ x, Needs n (k x)
  | n + 1, .credentialsOf _ k => ∀ x, Needs n (k x)
  | n + 1, .challenge _ k => ∀ x, Needs n (k x)
  | n + 1, .addUser _ _ k => ∀ x, Needs n (k x)
  | n + 1, .addChallenge _ _ _ k => ∀ x, Needs n (k x)
  | n + 1, .addCredential _ k => ∀ x, Needs n (k x)
  | n + 1, .setCount _ _ k => Needs n k

theorem needs_done (n : Nat) {r : Reply} (h : r ≠ success) : Needs n (.done r) := by
  cases n with
  | zero => trivial
  | succ n => exact h

theorem Needs.step {n : Nat} {t : Task} {db : Db} (h : Needs (n + 1) t) : Needs n (t.step db).1 := by
  cases t with
  | done r => exact needs_done n h
  | setCount => exact h
  | _ => exact h _

theorem needs_sched {n : Nat} {i : ι} (h : Needs n (task app (reqs i))) (sched : List ι) :
    Needs (n - sched.count i) ((serveAll app reqs sched).tasks i) := by
  induction sched using List.reverseRecOn with
  | nil => exact h
  | append_singleton sched j ih =>
    by_cases hij : i = j
    · subst hij
      rw [step_task, List.count_append, List.count_singleton_self]
      generalize hm : n - sched.count i = m at ih
      cases m with
      | zero =>
        rw [show n - (sched.count i + 1) = 0 by omega]
        trivial
      | succ m =>
        rw [show n - (sched.count i + 1) = m by omega]
        exact ih.step
    · have : (sched ++ [j]).count i = sched.count i := by
        rw [List.count_append, List.count_singleton]
        simp [Ne.symm hij]
      rw [this, serveAll_snoc]
      simp only [Server.step, if_neg hij]
      exact ih

theorem needs_count {n : Nat} {i : ι} (h : Needs n (task app (reqs i)))
    (hs : answer app reqs sched i = some success) : n ≤ sched.count i := by
  by_contra hlt
  have := needs_sched h sched
  rw [answer_some.mp hs, show n - sched.count i = (n - sched.count i - 1) + 1 by omega] at this
  exact this rfl

theorem needs_read {att : Bool} {f : Form} {now : Int} {k : Credential → Challenge → User → Task}
    {n : Nat} (h : ∀ c ch u, Needs n (k c ch u)) : Needs (n + 2) (readTask app att f now k) := by
  unfold readTask
  split
  · split <;> exact needs_done _ (by simp [success])
  · split
    · exact needs_done _ (by simp [success])
    · intro ch
      cases ch with
      | none => exact needs_done _ (by simp [success])
      | some ch =>
        intro u
        cases u with
        | none => exact needs_done _ (by simp [success])
        | some u =>
          simp only
          split
          · exact needs_done _ (by simp [success])
          · exact h _ _ _

theorem refused {m : String} {r : Py Unit} (n : Nat) (h : r ≠ .ok ()) :
    Needs n (.done (conclude m r)) :=
  needs_done n (by rw [Ne, conclude_success]; exact h)

theorem refused_error {m : String} (n : Nat) {e : Exc} :
    Needs n (.done (conclude m (finalise (.error e)))) :=
  refused n finalise_error

theorem refused_write {m : String} (n : Nat) {w : Py (Option String)} (h : w ≠ .ok none) :
    Needs n (.done (conclude m (finalise (checkWrite w)))) := by
  refine refused n ?_
  rw [Ne, finalise_ok_iff, checkWrite_ok_iff]
  exact h

theorem needs_attestation (env : Env) (m : String) (a : AttestationArgs) :
    Needs 2 (handlerTask env m (attestationProg env a)) := by
  unfold attestationProg
  cases attestationChecks env a with
  | error e => exact refused_error _
  | ok r =>
    simp only [handlerTask]
    cases r.att.authData.attested with
    | none => exact refused_write _ (by simp)
    | some acd =>
      intro u
      cases u with
      | none => exact refused_write _ (by simp)
      | some u =>
        simp only
        cases acd.credentialPublicKey with
        | none => exact refused_write _ (by simp [raise])
        | some k =>
          simp only
          cases coseKey env k with
          | error e => exact refused_write _ (by simp)
          | ok key => exact fun x => trivial

/-- After the counter has been read. -/
theorem needs_from (env : Env) (m : String) (a : AssertionArgs) (allowed : List Origin)
    (w : Py (Option CredentialData)) :
    Needs 2 (handlerTask env m (assertionProgFrom env a allowed w)) := by
  unfold assertionProgFrom
  cases checkRead w with
  | error e => exact refused_error _
  | ok cd =>
    simp only
    cases assertionChecks env a allowed cd with
    | error e => exact refused_error _
    | ok r =>
      intro c
      cases c with
      | none => exact refused_write _ (by simp)
      | some c => trivial

theorem refused_from (env : Env) (m : String) (a : AssertionArgs) (allowed : List Origin)
    (w : Py (Option CredentialData)) (n : Nat) (h : ∀ cd, w ≠ .ok (some cd)) :
    Needs n (handlerTask env m (assertionProgFrom env a allowed w)) := by
  unfold assertionProgFrom
  cases h' : checkRead w with
  | error e => exact refused_error _
  | ok cd => exact absurd (checkRead_ok_iff.mp h') (h cd)

theorem needs_assertion (env : Env) (m : String) (a : AssertionArgs) :
    Needs 4 (handlerTask env m (assertionProg env a)) := by
  unfold assertionProg
  cases assertionPre env a with
  | error e => exact refused_error _
  | ok allowed =>
    simp only [handlerTask]
    intro c
    cases c with
    | none => exact refused_from _ _ _ _ _ _ (by simp)
    | some c =>
      simp only
      cases parseCoseKeyBytes env c.key with
      | error e => exact refused_from _ _ _ _ _ _ (by simp)
      | ok key =>
        intro u
        cases u with
        | none => exact refused_from _ _ _ _ _ _ (by simp)
        | some u => exact needs_from _ _ _ _ _

/-- C63: a registration succeeds with its fourth statement, not before. -/
theorem C63_registration_statements {i : ι} {f : Form} {now : Int}
    (hi : reqs i = .registrationResponse f now) (h : answer app reqs sched i = some success) :
    4 ≤ sched.count i :=
  needs_count (by rw [hi]; exact needs_read fun _ _ _ => needs_attestation _ _ _) h

/-- C63: an authentication succeeds with its sixth statement, not before. -/
theorem C63_authentication_statements {i : ι} {f : Form} {now : Int}
    (hi : reqs i = .authenticationResponse f now) (h : answer app reqs sched i = some success) :
    6 ≤ sched.count i :=
  needs_count (by rw [hi]; exact needs_read fun _ _ _ => needs_assertion _ _ _) h

/-! ## What a login saw -/

/-- If `R` does not hold of the tables when the statement number `m` from now is
executed, the request will be refused. -/
def ReadsAt (R : Db → Prop) : Nat → Task → Prop
  | 0, t => ∀ db, R db ∨ ∀ n, Needs n (t.step db).1
  | m + 1, t => ∀ db, ReadsAt R m (t.step db).1

theorem readsAt_refused {R : Db → Prop} {m : Nat} {r : Reply} (h : r ≠ success) :
    ReadsAt R m (.done r) := by
  induction m with
  | zero => exact fun db => Or.inr fun n => needs_done n h
  | succ m ih => exact fun db => ih

theorem readsAt_sched {R : Db → Prop} {m : Nat} {i : ι} (h : ReadsAt R m (task app (reqs i)))
    {p : List ι} (hp : p.count i = m) (hps : p ++ [i] <+: sched)
    (hs : answer app reqs sched i = some success) : R (serveAll app reqs p).db := by
  have main : ∀ q : List ι, q.count i ≤ m →
      ReadsAt R (m - q.count i) ((serveAll app reqs q).tasks i) := by
    intro q
    induction q using List.reverseRecOn with
    | nil => exact fun _ => h
    | append_singleton q j ih =>
      intro hle
      by_cases hij : i = j
      · subst hij
        rw [List.count_append, List.count_singleton_self] at hle ⊢
        have := ih (by omega)
        rw [show m - q.count i = (m - (q.count i + 1)) + 1 by omega] at this
        rw [step_task]
        exact this _
      · have hc : (q ++ [j]).count i = q.count i := by
          rw [List.count_append, List.count_singleton]
          simp [Ne.symm hij]
        rw [hc] at hle ⊢
        rw [serveAll_snoc]
        simp only [Server.step, if_neg hij]
        exact ih hle
  have := main p (by omega)
  rw [hp, Nat.sub_self] at this
  rcases this (serveAll app reqs p).db with hR | hn
  · exact hR
  · exfalso
    rw [← step_task] at hn
    obtain ⟨post, rfl⟩ := hps
    have keep : ∀ q, ∀ n, Needs n ((serveAll app reqs (p ++ [i] ++ q)).tasks i) := by
      intro q
      induction q using List.reverseRecOn with
      | nil => simpa using hn
      | append_singleton q j ih =>
        intro n
        rw [← List.append_assoc]
        by_cases hij : i = j
        · subst hij
          rw [step_task]
          exact (ih (n + 1)).step
        · rw [serveAll_snoc]
          simp only [Server.step, if_neg hij]
          exact ih n
    have := keep post 1
    rw [answer_some.mp hs] at this
    exact this rfl

/-- At the third statement of a login, the stored counter is smaller. -/
def CounterBelow (id : Bytes) (k : Nat) (db : Db) : Prop :=
  ∃ row ∈ db.credentials, row.id = id ∧ ∀ m, row.count = some m → m < k

theorem authentication_reads {f : Form} {now : Int} {n : Nat} {c : Credential} {name : String} {k : Nat}
    (hs : Submits app f n c name) (hk : HasCounter c k) :
    ReadsAt (CounterBelow c.rawId k) 2 (task app (.authenticationResponse f now)) := by
  obtain ⟨cid, text, d, h1, h2, h3, h4, h5, h6⟩ := hs
  have hp : parseForm app.env f = .ok (cid, c, name) :=
    parseForm_ok_iff.mpr ⟨h1, h6, text, d, h3, h4, h5⟩
  simp only [task, readTask, hp]
  split
  · exact readsAt_refused (by simp [success])
  intro db1
  simp only [Task.step]
  cases db1.challenge (app.rowId cid) with
  | none => exact readsAt_refused (by simp [success])
  | some ch =>
    intro db2
    simp only [Task.step]
    cases db2.userNamed name with
    | none => exact readsAt_refused (by simp [success])
    | some u =>
      simp only
      split
      · exact readsAt_refused (by simp [success])
      intro db3
      unfold assertionProg
      cases ha : assertionPre app.env (assertionArgs c ch u) with
      | error e => exact Or.inr fun n => refused_error n
      | ok allowed =>
        simp only [handlerTask, Task.step]
        cases hr : db3.credential (assertionArgs c ch u).credential.rawId with
        | none => exact Or.inr fun n => refused_from _ _ _ _ _ _ (by simp)
        | some row =>
          obtain ⟨hr1, hr2⟩ := credential_some hr
          simp only
          by_cases hlt : ∀ m, row.count = some m → m < k
          · exact Or.inl ⟨row, hr1, hr2, hlt⟩
          refine Or.inr fun n => ?_
          cases parseCoseKeyBytes app.env row.key with
          | error e => exact refused_from _ _ _ _ _ _ (by simp)
          | ok key =>
            cases n with
            | zero => trivial
            | succ n =>
              intro v
              cases v with
              | none => exact refused_from _ _ _ _ _ _ (by simp)
              | some v =>
                simp only [assertionProgFrom, checkRead]
                cases hc : assertionChecks app.env (assertionArgs c ch u) allowed
                  ⟨key, row.count, v.entity, none⟩ with
                | error e => exact refused_error _
                | ok r =>
                  exfalso
                  refine hlt fun m hm => ?_
                  obtain ⟨-, hok⟩ := (assertionChecks_ok_iff (assertionPre_ok_iff.mp ha).1).mp hc
                  obtain ⟨cdj, raw, sig, hd, q1, -, -, -, -, -, q2⟩ := hok
                  obtain ⟨k', q3, q4⟩ := q2 m hm rfl
                  rw [hasCounter_unique hk ⟨cdj, raw, sig, hd, q1, q3⟩]
                  exact q4

/-! ## What a login leaves -/

/-- The commit of a login. -/
theorem login_commit {i : ι} {f : Form} {now : Int} {n : Nat} {c : Credential} {name : String} {k : Nat}
    {p : List ι} (hi : reqs i = .authenticationResponse f now) (hs : Submits app f n c name)
    (hk : HasCounter c k) (h0 : answer app reqs p i = none)
    (h1 : answer app reqs (p ++ [i]) i = some success) :
    (∃ row ∈ (serveAll app reqs p).db.credentials, row.id = c.rawId) ∧
      (serveAll app reqs (p ++ [i])).db = (serveAll app reqs p).db.setCount c.rawId k := by
  have inv := server_inv app reqs p
  rw [answer_some, step_task] at h1
  rcases inv.fine i with hsafe | ⟨r, hr, -⟩
  · rcases hsafe.step inv.keyed with ⟨e, -⟩ | ⟨_, _, _, r, e, ⟨_, _, e'⟩, -⟩ | ⟨row, -, ha, -⟩ |
      ⟨id, m, -, hset, hdb⟩
    · rw [h1] at e
      exact absurd rfl e.1
    · rw [h1] at e
      cases e
      cases e'
    · obtain ⟨_, _, _, _, _, _, _, _, _, _, _, e, -⟩ := ha
      rw [hi] at e
      cases e
    · obtain ⟨f', _, n', c', name', ch, u, rk, count, key, user, rp, ad, e, h2, -, -, -, -, -,
        ⟨row, hr1, hr2, -⟩, -, h3, rfl, rfl⟩ := hset
      rw [hi] at e
      cases e
      obtain ⟨-, rfl, -⟩ := submits_unique hs h2
      refine ⟨⟨row, hr1, hr2⟩, ?_⟩
      rw [serveAll_snoc]
      show (((serveAll app reqs p).tasks i).step (serveAll app reqs p).db).2 = _
      rw [hdb, hasCounter_unique hk (assertionOk_counter h3)]
  · rw [answer_some.mpr hr] at h0
    cases h0

/-- A login leaves its counter. -/
theorem login_leaves {i : ι} {f : Form} {now : Int} {n : Nat} {c : Credential} {name : String} {k : Nat}
    {p : List ι} (hi : reqs i = .authenticationResponse f now) (hs : Submits app f n c name)
    (hk : HasCounter c k) (h0 : answer app reqs p i = none)
    (h1 : answer app reqs (p ++ [i]) i = some success) :
    (∃ row ∈ (serveAll app reqs (p ++ [i])).db.credentials, row.id = c.rawId) ∧
      ∀ row ∈ (serveAll app reqs (p ++ [i])).db.credentials, row.id = c.rawId →
        row.count = some (k : Int) := by
  obtain ⟨⟨row, hr1, hr2⟩, hdb⟩ := login_commit hi hs hk h0 h1
  rw [hdb]
  refine ⟨⟨_, List.mem_map_of_mem hr1, ?_⟩, fun r hr he => ?_⟩
  · rw [(setCount_keeps _ _ row).1, hr2]
  · obtain ⟨r', hr', rfl⟩ := List.mem_map.mp hr
    rw [(setCount_keeps _ _ r').1] at he
    unfold Flask.setCount
    rw [if_pos (by rw [beq_iff_eq, he])]

/-- The stored counter is that of the last login. -/
theorem counter_stays {id : Bytes} {k : Int} {p : List ι} {j : ι}
    (hrow : ∃ row ∈ (serveAll app reqs p).db.credentials, row.id = id)
    (hk : ∀ row ∈ (serveAll app reqs p).db.credentials, row.id = id → row.count = some k)
    (hj : ∀ m, answer app reqs p j = none → ¬ AuthenticatedAt app reqs (p ++ [j]) j id m) :
    (∃ row ∈ (serveAll app reqs (p ++ [j])).db.credentials, row.id = id) ∧
    ∀ row ∈ (serveAll app reqs (p ++ [j])).db.credentials, row.id = id → row.count = some k := by
  have inv := server_inv app reqs p
  have hdb : (serveAll app reqs (p ++ [j])).db =
      (((serveAll app reqs p).tasks j).step (serveAll app reqs p).db).2 := by
    rw [serveAll_snoc]
    rfl
  rcases inv.fine j with hsafe | ⟨r, hr, -⟩
  · rcases hsafe.step inv.keyed with ⟨-, -, h⟩ | ⟨_, _, _, _, -, -, -, -, h⟩ | ⟨row, -, -, hf, h⟩ |
      ⟨id', m, h1, hset, h⟩
    · rw [hdb, h]
      exact ⟨hrow, hk⟩
    · rw [hdb, h]
      exact ⟨hrow, hk⟩
    · rw [hdb, h]
      obtain ⟨old, ho1, ho2⟩ := hrow
      refine ⟨⟨old, List.mem_append_left _ ho1, ho2⟩, fun r hr he => ?_⟩
      rcases List.mem_append.mp hr with hr | hr
      · exact hk r hr he
      · rw [List.mem_singleton] at hr
        subst hr
        exact absurd (ho2.trans he.symm) (hf old ho1)
    · rw [hdb, h]
      have hne : id' ≠ id := by
        rintro rfl
        obtain ⟨f, now, n, c, name, ch, u, rk, count, key, user, rp, ad, e1, e2, -, -, -, -, -, -, -,
          e3, e4, e5⟩ := hset
        refine hj m ?_ ⟨f, now, n, c, name, ad.signCount, e1, ?_, e2, e4.symm, e5,
          assertionOk_counter e3⟩
        · cases ha : answer app reqs p j with
          | none => rfl
          | some r =>
            rw [answer_some.mp ha] at hsafe h1
            cases h1
            exact absurd rfl hsafe.1
        · rw [answer_some, step_task, h1]
      have same : ∀ r : CredentialRow, r.id = id → setCount id' m r = r := by
        intro r hr
        unfold Flask.setCount
        rw [if_neg]
        rw [beq_iff_eq, hr]
        exact hne.symm
      obtain ⟨old, ho1, ho2⟩ := hrow
      refine ⟨⟨old, ?_, ho2⟩, fun r hr he => ?_⟩
      · show old ∈ (serveAll app reqs p).db.credentials.map (setCount id' m)
        exact List.mem_map.mpr ⟨old, ho1, same old ho2⟩
      · obtain ⟨r', hr', rfl⟩ := List.mem_map.mp hr
        rw [(setCount_keeps id' m r').1] at he
        rw [same r' he]
        exact hk r' hr' he
  · rw [hdb, hr]
    exact ⟨hrow, hk⟩

/-- C63, counters: when a login with a credential succeeds, its counter exceeds that of
an earlier successful login with it, provided that no other login with it was answered
after the earlier and before the later had read the counter.  (Without the proviso this
is false, see `C63_counters_refuted`.) -/
theorem C63_counters_partial {i j : ι} {f f' : Form} {now now' : Int} {n n' : Nat} {c c' : Credential}
    {name name' : String} {k k' : Nat} {q p : List ι}
    (hi : reqs i = .authenticationResponse f now) (hs : Submits app f n c name) (hk : HasCounter c k)
    (hj : reqs j = .authenticationResponse f' now') (hs' : Submits app f' n' c' name')
    (hk' : HasCounter c' k') (hid : c.rawId = c'.rawId)
    -- the login `i` is answered at the moment `q ++ [i]`
    (h0 : answer app reqs q i = none) (h1 : answer app reqs (q ++ [i]) i = some success)
    -- the third statement of the login `j` is executed at the moment `p ++ [j]`
    (hq : q ++ [i] <+: p) (hp : p ++ [j] <+: sched) (hp' : p.count j = 2)
    (h2 : answer app reqs sched j = some success)
    -- no other in between
    (alone : ∀ l m, l ≠ i → AuthenticatedAt app reqs p l c.rawId m →
      AuthenticatedAt app reqs q l c.rawId m) : k < k' := by
  obtain ⟨row, hr1, hr2, hr3⟩ := readsAt_sched (by rw [hj]; exact authentication_reads hs' hk') hp' hp h2
  have main : ∀ r, q ++ [i] ++ r <+: p →
      (∃ row ∈ (serveAll app reqs (q ++ [i] ++ r)).db.credentials, row.id = c.rawId) ∧
      ∀ row ∈ (serveAll app reqs (q ++ [i] ++ r)).db.credentials, row.id = c.rawId →
        row.count = some (k : Int) := by
    intro r
    induction r using List.reverseRecOn with
    | nil =>
      intro _
      rw [List.append_nil]
      exact login_leaves hi hs hk h0 h1
    | append_singleton r l ih =>
      intro hr
      rw [← List.append_assoc] at hr ⊢
      obtain ⟨ih1, ih2⟩ := ih ((List.prefix_append _ _).trans hr)
      refine counter_stays ih1 ih2 fun m hn ha => ?_
      have hl : l ≠ i := by
        rintro rfl
        rw [answer_mono (List.prefix_append _ r) h1] at hn
        cases hn
      obtain ⟨_, _, _, _, _, _, -, hq', -⟩ := alone l m hl (authenticatedAt_mono hr ha)
      rw [answer_mono (by rw [List.append_assoc]; exact List.prefix_append _ _) hq'] at hn
      cases hn
  obtain ⟨r, rfl⟩ := hq
  have := hr3 k ((main r (List.prefix_refl _)).2 row hr1 (hr2.trans hid.symm))
  exact_mod_cast this

/-- C63, replay: under the same proviso the same response does not succeed twice.
(Without the proviso this is false, see `C63_replay_refuted`.) -/
theorem C63_no_replay_partial {i j : ι} {f f' : Form} {now now' : Int} {n n' : Nat} {c c' : Credential}
    {name name' : String} {q p : List ι}
    (hi : reqs i = .authenticationResponse f now) (hs : Submits app f n c name)
    (hj : reqs j = .authenticationResponse f' now') (hs' : Submits app f' n' c' name')
    (h0 : answer app reqs q i = none) (h1 : answer app reqs (q ++ [i]) i = some success)
    (hq : q ++ [i] <+: p) (hp : p ++ [j] <+: sched) (hp' : p.count j = 2)
    (h2 : answer app reqs sched j = some success)
    (alone : ∀ l m, l ≠ i → AuthenticatedAt app reqs p l c.rawId m →
      AuthenticatedAt app reqs q l c.rawId m) :
    ¬ (c.rawId = c'.rawId ∧ c.response = c'.response) := by
  rintro ⟨hid, hresp⟩
  obtain ⟨k, hk⟩ : ∃ k, HasCounter c k := by
    rcases success_cases h1 with ⟨_, ⟨_, _, _, _, _, _, _, _, _, _, _, e, -⟩, -⟩ |
      ⟨_, _, ⟨_, _, _, _, _, _, _, _, _, _, _, _, ad, e, e2, -, -, -, -, -, -, -, e3, -⟩⟩ <;>
      rw [hi] at e <;> cases e
    obtain ⟨-, rfl, -⟩ := submits_unique hs e2
    exact ⟨_, assertionOk_counter e3⟩
  have hk' : HasCounter c' k := by
    obtain ⟨cdj, raw, sig, hd, e1, e2⟩ := hk
    exact ⟨cdj, raw, sig, hd, hresp ▸ e1, e2⟩
  exact absurd (C63_counters_partial hi hs hk hj hs' hk' hid h0 h1 hq hp hp' h2 alone) (lt_irrefl k)

end WebAuthn.Flask
