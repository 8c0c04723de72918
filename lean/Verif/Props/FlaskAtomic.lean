import Verif.Lemmas.FlaskAtomic
import Verif.Props.Phishing

/-!
# The application repaired for overlapping requests (C63, C67)

What C63 and C67 miss of the application of the repository holds of the repaired one,
and what they say of the application of the repository holds of the repaired one too.
-/

namespace WebAuthn.Flask

open WebAuthn WebAuthn.Spec WebAuthn.Props

variable {ι : Type} [DecidableEq ι] {app : App} {reqs : ι → Event} {sched : List ι}

/-! ## Every request is answered -/

theorem Within.atomicStep {n : Nat} {t : Task} {db : Db} (h : Within (n + 1) t) :
    Within n (t.atomicStep db).1 := by
  cases t with
  | setCount id m k =>
    simp only [Task.atomicStep]
    by_cases hb : db.below id m = true
    · rw [if_pos hb]
      exact h
    · rw [if_neg hb]
      exact within_done _ _
  | addUser name hd k =>
    simp only [Task.atomicStep]
    cases db.userNamed name <;> exact h _
  | _ => exact Within.step h

theorem within_atomic {m : Nat} {i : ι} (h : Within m (task app (reqs i))) (sched : List ι) :
    Within (m - sched.count i) ((serveAtomic app reqs sched).tasks i) := by
  induction sched using List.reverseRecOn with
  | nil => exact h
  | append_singleton sched j ih =>
    rw [List.count_append]
    by_cases h : i = j
    · subst h
      rw [atomicStep_task]
      simp only [List.count_singleton_self]
      generalize hn : m - sched.count i = n at ih
      cases n with
      | zero =>
        obtain ⟨r, hr⟩ := within_zero ih
        rw [hr]
        exact within_done _ _
      | succ n =>
        rw [show m - (sched.count i + 1) = n by omega]
        exact ih.atomicStep
    · rw [serveAtomic_snoc]
      simp only [Server.atomicStep, if_neg h, List.count_singleton, beq_iff_eq, Ne.symm h, if_false,
        Nat.add_zero]
      exact ih

theorem atomic_answered {m : Nat} {i : ι} (hw : Within m (task app (reqs i))) (h : m ≤ sched.count i) :
    ∃ r, atomicAnswer app reqs sched i = some r := by
  have := within_atomic hw sched
  rw [show m - sched.count i = 0 by omega] at this
  obtain ⟨r, hr⟩ := within_zero this
  exact ⟨r, atomicAnswer_some.mpr hr⟩

/-- C63, repaired: a request is answered after at most six statements. -/
theorem C63_repaired_answered {i : ι} (h : 6 ≤ sched.count i) :
    ∃ r, atomicAnswer app reqs sched i = some r :=
  atomic_answered (within_task app (reqs i)) h

theorem Needs.atomicStep {n : Nat} {t : Task} {db : Db} (h : Needs (n + 1) t) :
    Needs n (t.atomicStep db).1 := by
  cases t with
  | setCount id m k =>
    simp only [Task.atomicStep]
    by_cases hb : db.below id m = true
    · rw [if_pos hb]
      exact h
    · rw [if_neg hb]
      exact needs_done n stale_ne.1
  | addUser name hd k =>
    simp only [Task.atomicStep]
    cases db.userNamed name <;> exact h _
  | _ => exact Needs.step h

theorem needs_atomic {n : Nat} {i : ι} (h : Needs n (task app (reqs i)))
    (hs : atomicAnswer app reqs sched i = some success) : n ≤ sched.count i := by
  have main : ∀ sched : List ι, Needs (n - sched.count i) ((serveAtomic app reqs sched).tasks i) := by
    intro sched
    induction sched using List.reverseRecOn with
    | nil => exact h
    | append_singleton sched j ih =>
      by_cases hij : i = j
      · subst hij
        rw [atomicStep_task, List.count_append, List.count_singleton_self]
        generalize hm : n - sched.count i = m at ih
        cases m with
        | zero =>
          rw [show n - (sched.count i + 1) = 0 by omega]
          trivial
        | succ m =>
          rw [show n - (sched.count i + 1) = m by omega]
          exact ih.atomicStep
      · have : (sched ++ [j]).count i = sched.count i := by
          rw [List.count_append, List.count_singleton]
          simp [Ne.symm hij]
        rw [this, serveAtomic_snoc]
        simp only [Server.atomicStep, if_neg hij]
        exact ih
  by_contra hlt
  have := main sched
  rw [atomicAnswer_some.mp hs, show n - sched.count i = (n - sched.count i - 1) + 1 by omega] at this
  exact this rfl

/-- C63, repaired: as `C63_authentication_statements`. -/
theorem C63_repaired_authentication_statements {i : ι} {f : Form} {now : Int}
    (hi : reqs i = .authenticationResponse f now) (h : atomicAnswer app reqs sched i = some success) :
    6 ≤ sched.count i :=
  needs_atomic (by rw [hi]; exact needs_read fun _ _ _ => needs_assertion _ _ _) h

/-! ## What held holds -/

/-- C63, repaired: as `C63_login`. -/
theorem C63_repaired_login (codec : CodecLaws app.env) {i : ι} {f : Form} {now : Int}
    (hi : reqs i = .authenticationResponse f now) (h : atomicAnswer app reqs sched i = some success) :
    ∃ n c name pre j k cdj raw sig handle, Submits app f n c name ∧
      NotYet (atomicAnswer app reqs) sched i pre ∧
      RegisteredBy (atomicAnswer app reqs) app reqs pre j c.rawId name k ∧
      c.response = .assertion cdj raw sig handle ∧
      SignedBy app.env k sig (raw ++ app.env.sha256 cdj) := by
  obtain ⟨n, c, name, p, j, k, cdj, raw, sig, handle, h1, h2, h3, h4, h5⟩ :=
    C63_login codec hi (answer_of_success h)
  obtain ⟨pre, g1, g2⟩ := before_kept h h2
  exact ⟨n, c, name, pre, j, k, cdj, raw, sig, handle, h1, g1, registered_of_kept (g2 j) h3, h4, h5⟩

/-- C63, repaired: as `C63_fresh_challenge`. -/
theorem C63_repaired_fresh_challenge {i : ι} {f : Form} {now : Int} {n : Nat} {c : Credential}
    {name : String} (hi : reqs i = .registrationResponse f now ∨ reqs i = .authenticationResponse f now)
    (hs : Submits app f n c name) (h : atomicAnswer app reqs sched i = some success) :
    ∃ pre j ch t name' cdj d text, NotYet (atomicAnswer app reqs) sched i pre ∧
      IssuedBy (atomicAnswer app reqs) reqs pre j n ch t name' ∧ now - t ≤ 60000 ∧
      ((∃ ob, c.response = .attestation cdj ob) ∨
        ∃ raw sig handle, c.response = .assertion cdj raw sig handle) ∧
      ClientJson app.env cdj d ∧ Lookup d (.str "challenge") (.str text) ∧ Base64UrlText text ch := by
  obtain ⟨p, j, ch, t, name', cdj, d, text, h1, h2, h3⟩ :=
    C63_fresh_challenge hi hs (answer_of_success h)
  obtain ⟨pre, g1, g2⟩ := before_kept h h1
  exact ⟨pre, j, ch, t, name', cdj, d, text, g1, issued_of_kept (g2 j) h2, h3⟩

/-- C63, repaired: as `C63_registration_scope`. -/
theorem C63_repaired_registration_scope {i : ι} {f : Form} {now : Int}
    (hi : reqs i = .registrationResponse f now) (h : atomicAnswer app reqs sched i = some success) :
    ∃ n c name cdj ob o raw d text, Submits app f n c name ∧ c.response = .attestation cdj ob ∧
      ClientJson app.env cdj d ∧ Lookup d (.str "type") (.str "webauthn.create") ∧
      Lookup d (.str "origin") (.str text) ∧
      OriginOf app.env text ⟨"http", "localhost:5000", 5000⟩ ∧
      AttObjOf app.env ob o raw ∧ RpHashOk app.env raw "localhost" ∧ FlagSet raw 0 :=
  C63_registration_scope hi (answer_of_success h)

/-- C63, repaired: as `C63_authentication_scope`. -/
theorem C63_repaired_authentication_scope {i : ι} {f : Form} {now : Int}
    (hi : reqs i = .authenticationResponse f now) (h : atomicAnswer app reqs sched i = some success) :
    ∃ n c name cdj raw sig handle d text, Submits app f n c name ∧
      c.response = .assertion cdj raw sig handle ∧
      ClientJson app.env cdj d ∧ Lookup d (.str "type") (.str "webauthn.get") ∧
      Lookup d (.str "origin") (.str text) ∧
      OriginOf app.env text ⟨"http", "localhost:5000", 5000⟩ ∧
      RpHashOk app.env raw "localhost" ∧ FlagSet raw 0 :=
  C63_authentication_scope hi (answer_of_success h)

/-- C63, repaired: as `C63_registered_once`. -/
theorem C63_repaired_registered_once {j j' : ι} {id : Bytes} {name name' : String} {k k' : CPK}
    (h : RegisteredBy (atomicAnswer app reqs) app reqs sched j id name k)
    (h' : RegisteredBy (atomicAnswer app reqs) app reqs sched j' id name' k') : j = j' :=
  C63_registered_once (kept_of_registered h) (kept_of_registered h')

/-- C63, repaired: as `C63_issued_once`. -/
theorem C63_repaired_issued_once {j j' : ι} {n n' : Nat} {ch ch' : Bytes} {t t' : Int} {name name' : String}
    (h : IssuedBy (atomicAnswer app reqs) reqs sched j n ch t name)
    (h' : IssuedBy (atomicAnswer app reqs) reqs sched j' n' ch' t' name') (he : n = n' ∨ ch = ch') :
    j = j' :=
  C63_issued_once (kept_of_issued h) (kept_of_issued h') he

/-! ## Counters -/

/-- The statement with which a login succeeds. -/
theorem Safe.login_step {f : Form} {now : Int} {t : Task} {db : Db} (key : Keyed db)
    (h : Safe app (.authenticationResponse f now) t db) (hs : (t.step db).1 = .done success) :
    ∃ id m, t = .setCount id m (.done success) ∧ Sets app (.authenticationResponse f now) db id m := by
  have no : ∀ {t' db'}, Safe app (.authenticationResponse f now) t' db' → t' ≠ .done success := by
    rintro t' db' h' rfl
    exact h'.1 rfl
  cases t with
  | done r => exact absurd hs (no h)
  | addUser name hd k => exact absurd hs (no (h.2 db (Grows.refl _) key))
  | addChallenge ch time n k =>
    obtain ⟨-, h2, h3⟩ := h db (Grows.refl _) key
    simp only [Task.step] at hs
    rcases addChallenge_cases db ch time n with e | ⟨-, e⟩ <;> rw [e] at hs
    · exact absurd hs (no (h3 _))
    · obtain ⟨r, h4, _, _, h5⟩ := h2 (db.challenges.length + 1)
      rw [h4, h5] at hs
      cases hs
  | addCredential row k =>
    obtain ⟨⟨_, _, _, _, _, _, _, _, _, _, _, e, -⟩, -⟩ := h db (Grows.refl _) key
    cases e
  | setCount id m k =>
    obtain ⟨h1, rfl⟩ := h db (Grows.refl _) key
    exact ⟨id, m, rfl, h1⟩
  | _ => exact absurd hs (no (h db (Grows.refl _) key))

/-- A request that has not been answered, but is not the first of a user. -/
theorem atomic_safe {p : List ι} {i : ι} (hn : atomicAnswer app reqs p i = none)
    (hr : ∀ name h ch t, reqs i ≠ .registrationRequest (some name) h ch t) :
    Keyed (serveAtomic app reqs p).db ∧
    (serveAll app reqs (keptSched app reqs p)).tasks i = (serveAtomic app reqs p).tasks i ∧
    NoAdd ((serveAtomic app reqs p).tasks i) ∧
    Safe app (reqs i) ((serveAtomic app reqs p).tasks i) (serveAtomic app reqs p).db := by
  obtain ⟨hdb, hs⟩ := same_server app reqs p
  have inv := server_inv app reqs (keptSched app reqs p)
  have undone : ∀ r, (serveAtomic app reqs p).tasks i ≠ .done r := fun r h => by
    rw [atomicAnswer_some.mpr h] at hn
    cases hn
  rcases hs i with ⟨he, hna⟩ | ⟨name, hd, ch, now, he, -⟩ | ⟨ht, -⟩
  · refine ⟨hdb ▸ inv.keyed, he, hna, ?_⟩
    rcases inv.fine i with h | ⟨r, h, -⟩
    · rw [he, hdb] at h
      exact h
    · rw [he] at h
      exact absurd h (undone r)
  · exact absurd he (hr _ _ _ _)
  · exact absurd ht (undone _)

theorem atomicStep_eq {t : Task} (hn : NoAdd t) (h : ∀ id n k, t ≠ .setCount id n k) (db : Db) :
    t.atomicStep db = t.step db := by
  cases t with
  | addUser => exact absurd hn id
  | setCount => exact absurd rfl (h _ _ _)
  | _ => rfl

/-- The commit of a login. -/
theorem atomic_commit {i : ι} {f : Form} {now : Int} {n : Nat} {c : Credential} {name : String} {k : Nat}
    {p : List ι} (hi : reqs i = .authenticationResponse f now) (hs : Submits app f n c name)
    (hk : HasCounter c k) (h0 : atomicAnswer app reqs p i = none)
    (h1 : atomicAnswer app reqs (p ++ [i]) i = some success) :
    (serveAtomic app reqs p).db.below c.rawId k = true ∧
      (serveAtomic app reqs (p ++ [i])).db = (serveAtomic app reqs p).db.setCount c.rawId k := by
  obtain ⟨key, -, hna, safe⟩ := atomic_safe h0 (by rw [hi]; simp)
  rw [hi] at safe
  rw [atomicAnswer_some, atomicStep_task] at h1
  rw [atomicStep_db]
  by_cases hset : ∃ id m k, (serveAtomic app reqs p).tasks i = .setCount id m k
  · obtain ⟨id, m, k', ht⟩ := hset
    rw [ht] at h1 safe ⊢
    obtain ⟨⟨f', _, n', c', name', ch, u, rk, count, key, user, rp, ad, e, h2, -, -, -, -, -, -, -, h3,
      rfl, rfl⟩, rfl⟩ := safe _ (Grows.refl _) key
    cases e
    obtain ⟨-, rfl, -⟩ := submits_unique hs h2
    rw [hasCounter_unique hk (assertionOk_counter h3)]
    simp only [Task.atomicStep] at h1 ⊢
    by_cases hb : (serveAtomic app reqs p).db.below c.rawId ad.signCount = true
    · rw [if_pos hb]
      exact ⟨hb, rfl⟩
    · rw [if_neg hb] at h1
      exact absurd (Task.done.inj h1) stale_ne.1
  · exfalso
    rw [atomicStep_eq hna (fun id m k h => hset ⟨id, m, k, h⟩)] at h1
    obtain ⟨id, m, h, -⟩ := safe.login_step key h1
    exact hset ⟨id, m, _, h⟩

theorem below_iff {db : Db} {id : Bytes} {n : Int} : db.below id n = true ↔
    ∃ row ∈ db.credentials, row.id = id ∧ ∀ m, row.count = some m → m < n := by
  simp only [Db.below, List.any_eq_true, Bool.and_eq_true, beq_iff_eq]
  refine exists_congr fun row => and_congr_right fun _ => and_congr_right fun _ => ?_
  cases row.count with
  | none => simp
  | some m => simp

/-- What a statement does to the credentials. -/
theorem atomicStep_credentials (t : Task) (db : Db) :
    (∃ l, (t.atomicStep db).2.credentials = db.credentials ++ l) ∨
    ∃ id n k, t = .setCount id n k ∧ db.below id n = true ∧
      (t.atomicStep db).2.credentials = db.credentials.map (setCount id n) := by
  have same : ∀ {db' : Db}, db'.credentials = db.credentials → ∃ l, db'.credentials = db.credentials ++ l :=
    fun h => ⟨[], by rw [h, List.append_nil]⟩
  cases t with
  | setCount id n k =>
    simp only [Task.atomicStep]
    by_cases hb : db.below id n = true
    · rw [if_pos hb]
      exact Or.inr ⟨id, n, k, rfl, hb, rfl⟩
    · rw [if_neg hb]
      exact Or.inl (same rfl)
  | addUser name hd k =>
    left
    simp only [Task.atomicStep]
    cases db.userNamed name with
    | some u => exact same rfl
    | none =>
      rcases addUser_cases db name hd with e | ⟨-, e⟩ <;> rw [e] <;> exact same rfl
  | addChallenge ch time n k =>
    left
    simp only [Task.atomicStep, Task.step]
    rcases addChallenge_cases db ch time n with e | ⟨-, e⟩ <;> rw [e] <;> exact same rfl
  | addCredential row k =>
    left
    simp only [Task.atomicStep, Task.step]
    rcases addCredential_cases db row with e | ⟨-, e⟩ <;> rw [e]
    · exact same rfl
    · exact ⟨[row], rfl⟩
  | _ => exact Or.inl (same rfl)

theorem atomic_keyed (app : App) (reqs : ι → Event) (p : List ι) : Keyed (serveAtomic app reqs p).db := by
  rw [← (same_server app reqs p).1]
  exact (server_inv app reqs _).keyed

/-- The stored counter is at least `k`. -/
def AtLeast (id : Bytes) (k : Int) (db : Db) : Prop :=
  ∃ row ∈ db.credentials, row.id = id ∧ ∃ m, row.count = some m ∧ k ≤ m

/-- A counter is not set back. -/
theorem atLeast_mono {id : Bytes} {k : Int} {p q : List ι} (hpq : p <+: q)
    (h : AtLeast id k (serveAtomic app reqs p).db) : AtLeast id k (serveAtomic app reqs q).db := by
  obtain ⟨l, rfl⟩ := hpq
  induction l using List.reverseRecOn with
  | nil => rwa [List.append_nil]
  | append_singleton l j ih =>
    obtain ⟨row, h1, h2, m, h3, h4⟩ := ih
    rw [← List.append_assoc]
    unfold AtLeast
    rw [atomicStep_db]
    rcases atomicStep_credentials ((serveAtomic app reqs (p ++ l)).tasks j)
      (serveAtomic app reqs (p ++ l)).db with ⟨l', e⟩ | ⟨id', n, k', -, hb, e⟩ <;> rw [e]
    · exact ⟨row, List.mem_append_left _ h1, h2, m, h3, h4⟩
    · refine ⟨setCount id' n row, List.mem_map_of_mem h1, (setCount_keeps _ _ row).1.trans h2, ?_⟩
      unfold Flask.setCount
      by_cases hid : (row.id == id') = true
      · rw [if_pos hid]
        refine ⟨n, rfl, ?_⟩
        obtain ⟨row', g1, g2, g3⟩ := below_iff.mp hb
        rw [beq_iff_eq] at hid
        obtain rfl := pairwise_unique (atomic_keyed app reqs (p ++ l)).credentialIds h1 g1
          (hid.trans g2.symm)
        have := g3 m h3
        omega
      · rw [if_neg hid]
        exact ⟨m, h3, h4⟩

/-- C63, repaired: of two logins with a credential, the one that is answered later has
the greater counter. -/
theorem C63_repaired_counters {pre : List ι} {i j : ι} {c c' : Credential} {k k' : Nat}
    (hi : LoginBy (atomicAnswer app reqs) app reqs pre c i) (hk : HasCounter c k)
    (hpre : pre <+: sched) (hn : atomicAnswer app reqs pre j = none)
    (hj : LoginBy (atomicAnswer app reqs) app reqs sched c' j) (hk' : HasCounter c' k')
    (hid : c.rawId = c'.rawId) : k < k' := by
  obtain ⟨f, t, n, name, a1, a2, a3⟩ := hi
  obtain ⟨f', t', n', name', b1, b2, b3⟩ := hj
  have at_ : ∀ {q : List ι} {l : ι}, atomicAnswer app reqs q l = some success → ∃ p, p ++ [l] <+: q ∧
      atomicAnswer app reqs p l = none ∧ atomicAnswer app reqs (p ++ [l]) l = some success := by
    intro q l h
    rcases atomic_answered_at h with h | h
    · exact absurd (answer_of_success h) (not_served_nil (Or.inl rfl))
    · exact h
  obtain ⟨p, p1, p2, p3⟩ := at_ a2
  obtain ⟨q, q1, q2, q3⟩ := at_ b2
  obtain ⟨hb, hdb⟩ := atomic_commit a1 a3 hk p2 p3
  obtain ⟨hb', -⟩ := atomic_commit b1 b3 hk' q2 q3
  have hpq : p ++ [i] <+: q := by
    have : pre <+: q := by
      rcases List.prefix_or_prefix_of_prefix hpre q1 with h | h
      · rcases List.prefix_concat_iff.mp h with rfl | h
        · rw [q3] at hn
          cases hn
        · exact h
      · rw [atomicAnswer_mono h q3] at hn
        cases hn
    exact p1.trans this
  have : AtLeast c.rawId k (serveAtomic app reqs (p ++ [i])).db := by
    obtain ⟨row, h1, h2, -⟩ := below_iff.mp hb
    unfold AtLeast
    rw [hdb]
    refine ⟨_, List.mem_map_of_mem h1, (setCount_keeps _ _ row).1.trans h2, k, ?_, le_refl _⟩
    unfold Flask.setCount
    rw [if_pos (by rw [beq_iff_eq, h2])]
  obtain ⟨row, h1, h2, m, h3, h4⟩ := atLeast_mono hpq this
  obtain ⟨row', g1, g2, g3⟩ := below_iff.mp hb'
  obtain rfl := pairwise_unique (atomic_keyed app reqs q).credentialIds h1 g1
    (h2.trans (hid.trans g2.symm))
  have := g3 m h3
  omega

theorem login_has_counter {i : ι} {c : Credential}
    (h : LoginBy (atomicAnswer app reqs) app reqs sched c i) : ∃ k, HasCounter c k := by
  obtain ⟨f, t, n, name, hi, h1, hs⟩ := h
  rcases success_cases (answer_of_success h1) with ⟨_, ⟨_, _, _, _, _, _, _, _, _, _, _, e, -⟩, -⟩ |
    ⟨_, _, ⟨_, _, _, _, _, _, _, _, _, _, _, _, ad, e, e2, -, -, -, -, -, -, -, e3, -⟩⟩ <;>
    rw [hi] at e <;> cases e
  obtain ⟨-, rfl, -⟩ := submits_unique hs e2
  exact ⟨_, assertionOk_counter e3⟩

/-- Of two requests that have been answered, one was answered first. -/
theorem first_of {i j : ι} {r r' : Reply} (hij : i ≠ j) (hi : atomicAnswer app reqs sched i = some r)
    (hj : atomicAnswer app reqs sched j = some r') :
    (∃ pre, pre <+: sched ∧ atomicAnswer app reqs pre i = some r ∧ atomicAnswer app reqs pre j = none) ∨
    (∃ pre, pre <+: sched ∧ atomicAnswer app reqs pre j = some r' ∧
      atomicAnswer app reqs pre i = none) ∨
    atomicAnswer app reqs [] i = some r ∨ atomicAnswer app reqs [] j = some r' := by
  rcases atomic_answered_at hi with h | ⟨p, p1, p2, p3⟩
  · exact Or.inr (Or.inr (Or.inl h))
  rcases atomic_answered_at hj with h | ⟨q, q1, q2, q3⟩
  · exact Or.inr (Or.inr (Or.inr h))
  rcases List.prefix_or_prefix_of_prefix p1 q1 with h | h
  · rcases List.prefix_concat_iff.mp h with e | h
    · exact absurd (List.append_inj_right' e rfl |> List.singleton_inj.mp) hij
    · exact Or.inl ⟨q, (List.prefix_append _ _).trans q1, atomicAnswer_mono h p3, q2⟩
  · rcases List.prefix_concat_iff.mp h with e | h
    · exact absurd (List.append_inj_right' e rfl |> List.singleton_inj.mp) hij.symm
    · exact Or.inr (Or.inl ⟨p, (List.prefix_append _ _).trans p1, atomicAnswer_mono h q3, p2⟩)

/-- C63, repaired: no two logins with a credential have the same counter. -/
theorem C63_repaired_distinct_counters {i j : ι} {c c' : Credential} {k k' : Nat} (hij : i ≠ j)
    (hi : LoginBy (atomicAnswer app reqs) app reqs sched c i) (hk : HasCounter c k)
    (hj : LoginBy (atomicAnswer app reqs) app reqs sched c' j) (hk' : HasCounter c' k')
    (hid : c.rawId = c'.rawId) : k ≠ k' := by
  have hi' := hi
  have hj' := hj
  obtain ⟨f, t, n, name, a1, a2, a3⟩ := hi
  obtain ⟨f', t', n', name', b1, b2, b3⟩ := hj
  rcases first_of hij a2 b2 with ⟨pre, h1, h2, h3⟩ | ⟨pre, h1, h2, h3⟩ | h | h
  · exact (C63_repaired_counters ⟨f, t, n, name, a1, h2, a3⟩ hk h1 h3 hj' hk' hid).ne
  · exact (C63_repaired_counters ⟨f', t', n', name', b1, h2, b3⟩ hk' h1 h3 hi' hk hid.symm).ne'
  · exact absurd (answer_of_success h) (not_served_nil (Or.inl rfl))
  · exact absurd (answer_of_success h) (not_served_nil (Or.inl rfl))

/-- C63, repaired: no response succeeds twice. -/
theorem C63_repaired_no_replay {i j : ι} {c c' : Credential} (hij : i ≠ j)
    (hi : LoginBy (atomicAnswer app reqs) app reqs sched c i)
    (hj : LoginBy (atomicAnswer app reqs) app reqs sched c' j) :
    ¬ (c.rawId = c'.rawId ∧ c.response = c'.response) := by
  rintro ⟨hid, hresp⟩
  obtain ⟨k, hk⟩ := login_has_counter hi
  have hk' : HasCounter c' k := by
    obtain ⟨cdj, raw, sig, hd, e1, e2⟩ := hk
    exact ⟨cdj, raw, sig, hd, hresp ▸ e1, e2⟩
  exact C63_repaired_distinct_counters hij hi hk hj hk' hid rfl

/-! ## Approvals -/

/-- C65, repaired: as `C65_overlapping`. -/
theorem C65_repaired (codec : CodecLaws app.env) (json : JsonLaw app.env)
    {i j : ι} {f : Form} {now : Int} {n : Nat} {c : Credential} {name name' : String} {k : CPK}
    {acts : Approval → Prop} (holder : Holder app.env k (SentIn app reqs) acts)
    (hj : RegisteredBy (atomicAnswer app reqs) app reqs sched j c.rawId name' k)
    (hi : reqs i = .authenticationResponse f now) (h : atomicAnswer app reqs sched i = some success)
    (hf : Submits app f n c name) :
    name' = name ∧ ∃ a pre j' ch t name'', acts a ∧ Approves app.env a c ch ∧
      NotYet (atomicAnswer app reqs) sched i pre ∧
      IssuedBy (atomicAnswer app reqs) reqs pre j' n ch t name'' ∧ now - t ≤ 60000 := by
  obtain ⟨h1, a, p, j', ch, t, name'', h2, h3, h4, h5, h6⟩ :=
    C65_overlapping codec json holder (kept_of_registered hj) hi (answer_of_success h) hf
  obtain ⟨pre, g1, g2⟩ := before_kept h h4
  exact ⟨h1, a, pre, j', ch, t, name'', h2, h3, g1, issued_of_kept (g2 j') h5, h6⟩

omit [DecidableEq ι] in
theorem loginBy_unique {ans : List ι → ι → Option Reply} {p q : List ι} {i : ι} {c c' : Credential}
    (h : LoginBy ans app reqs p c i) (h' : LoginBy ans app reqs q c' i) : c = c' := by
  obtain ⟨f, t, n, name, h1, -, h2⟩ := h
  obtain ⟨f', t', n', name', g1, -, g2⟩ := h'
  rw [h1] at g1
  cases g1
  exact (submits_unique h2 g2).2.1

/-- C67, repaired: one approval is good for one login, whatever the order of the
statements of the requests. -/
theorem C67_repaired (codec : CodecLaws app.env) (json : JsonLaw app.env)
    {j : ι} {id : Bytes} {name : String} {k : CPK} {acts : Approval → Prop}
    (holder : Holder app.env k (SentIn app reqs) acts)
    (hr : RegisteredBy (atomicAnswer app reqs) app reqs sched j id name k) :
    OneEach app.env acts (LoginBy (atomicAnswer app reqs) app reqs sched) id := by
  classical
  have key : ∀ i, (∃ c, LoginBy (atomicAnswer app reqs) app reqs sched c i ∧ c.rawId = id) →
      ∃ a, acts a ∧ ∃ c ch, LoginBy (atomicAnswer app reqs) app reqs sched c i ∧ c.rawId = id ∧
        Approves app.env a c ch := by
    rintro i ⟨c, hi, rfl⟩
    have hi' := hi
    obtain ⟨f, t, n, name', h1, h2, h3⟩ := hi
    obtain ⟨-, a, _, _, ch, _, _, ha, hap, -⟩ := C65_repaired codec json holder hr h1 h2 h3
    exact ⟨a, ha, c, ch, hi', rfl, hap⟩
  refine ⟨fun i => if hi : ∃ c, LoginBy (atomicAnswer app reqs) app reqs sched c i ∧ c.rawId = id then
    some (key i hi).choose else none, ?_, ?_⟩
  · intro i c hi hid
    have hi' : ∃ c, LoginBy (atomicAnswer app reqs) app reqs sched c i ∧ c.rawId = id := ⟨c, hi, hid⟩
    obtain ⟨h1, c', ch, h2, -, h3⟩ := (key i hi').choose_spec
    obtain rfl := loginBy_unique hi h2
    exact ⟨_, ch, dif_pos hi', h1, h3⟩
  · intro i j c c' hi hid hj hid' he
    have hi' : ∃ c, LoginBy (atomicAnswer app reqs) app reqs sched c i ∧ c.rawId = id := ⟨c, hi, hid⟩
    have hj' : ∃ c, LoginBy (atomicAnswer app reqs) app reqs sched c j ∧ c.rawId = id := ⟨c', hj, hid'⟩
    simp only [dif_pos hi', dif_pos hj', Option.some.injEq] at he
    by_contra hij
    obtain ⟨-, c1, ch1, l1, -, a1⟩ := (key i hi').choose_spec
    obtain ⟨-, c2, ch2, l2, -, a2⟩ := (key j hj').choose_spec
    obtain rfl := loginBy_unique hi l1
    obtain rfl := loginBy_unique hj l2
    obtain ⟨x, hx⟩ := login_has_counter hi
    obtain ⟨y, hy⟩ := login_has_counter hj
    refine C63_repaired_distinct_counters hij hi hx hj hy (hid.trans hid'.symm) ?_
    obtain ⟨_, _, e1⟩ := a1.response
    obtain ⟨_, _, e2⟩ := a2.response
    obtain ⟨_, _, _, _, x1, x2⟩ := hx
    obtain ⟨_, _, _, _, y1, y2⟩ := hy
    rw [e1] at x1
    rw [e2, ← he] at y1
    cases x1
    cases y1
    rw [bigEndian_iff] at x2 y2
    omega

/-! ## Honest responses are accepted -/

/-- A request that was refused by an `UPDATE`. -/
theorem refused_at {p : List ι} {i : ι} {r : Reply} (h0 : atomicAnswer app reqs p i = none)
    (hr : ∀ name h ch t, reqs i ≠ .registrationRequest (some name) h ch t)
    (h1 : atomicAnswer app reqs (p ++ [i]) i = some r) :
    answer app reqs (keptSched app reqs (p ++ [i])) i = some r ∨
    ∃ id m, Sets app (reqs i) (serveAtomic app reqs p).db id m ∧
      (serveAtomic app reqs p).db.below id m = false := by
  obtain ⟨key, he, hna, safe⟩ := atomic_safe h0 hr
  by_cases hset : ∃ id m k, (serveAtomic app reqs p).tasks i = .setCount id m k
  · obtain ⟨id, m, k, ht⟩ := hset
    cases hb : (serveAtomic app reqs p).db.below id m with
    | false =>
      rw [ht] at safe
      exact Or.inr ⟨id, m, (safe _ (Grows.refl _) key).1, hb⟩
    | true =>
      left
      rw [ht] at safe he
      rw [keptSched_snoc]
      simp only [emits, ht, hb, if_true]
      rw [answer_some, step_task, he]
      rw [atomicAnswer_some, atomicStep_task, ht] at h1
      simp only [Task.atomicStep, hb, if_true] at h1
      exact h1
  · left
    have hd : ∀ r, (serveAtomic app reqs p).tasks i ≠ .done r := fun r h => by
      rw [atomicAnswer_some.mpr h] at h0
      cases h0
    obtain ⟨e1, e2⟩ := emits_other (s := serveAtomic app reqs p) (i := i) rfl hna hd
      fun id m k h => hset ⟨id, m, k, h⟩
    rw [keptSched_snoc, e1, answer_some, step_task, he, (same_server app reqs p).1]
    rw [atomicAnswer_some, atomicStep_task, e2] at h1
    exact h1

theorem answer_replicate {p : List ι} {i j : ι} (h : j ≠ i) (n : Nat) :
    answer app reqs (p ++ List.replicate n i) j = answer app reqs p j := by
  induction n with
  | zero => rw [List.replicate_zero, List.append_nil]
  | succ n ih => rw [List.replicate_succ', ← List.append_assoc, answer_other h, ih]

/-- What another request has been answered when `i` is. -/
theorem other_of_replicate {p q : List ι} {i j : ι} (h : j ≠ i) {n : Nat} {r : Reply}
    (hq : q <+: keptSched app reqs (p ++ [i]) ++ List.replicate n i)
    (hj : answer app reqs q j = some r) : atomicAnswer app reqs p j = some r := by
  have := answer_mono hq hj
  rw [answer_replicate h] at this
  rw [← atomicAnswer_other h]
  exact atomic_of_answer this

/-- The moment at which a response is answered. -/
theorem response_at {m : Nat} {pre : List ι} {i : ι} (hw : Within m (task app (reqs i)))
    (hpre : pre <+: sched) (hnot : i ∉ pre) (hcount : m ≤ sched.count i) (hstart : ∀ r, task app (reqs i) ≠ .done r) :
    ∃ p r, p ++ [i] <+: sched ∧ pre <+: p ∧ atomicAnswer app reqs p i = none ∧
      atomicAnswer app reqs (p ++ [i]) i = some r := by
  obtain ⟨r, hr⟩ := atomic_answered hw hcount
  rcases atomic_answered_at hr with h | ⟨p, h1, h2, h3⟩
  · exact absurd (atomicAnswer_some.mp h) (hstart r)
  · refine ⟨p, r, h1, ?_, h2, h3⟩
    rcases List.prefix_or_prefix_of_prefix hpre h1 with h | h
    · rcases List.prefix_concat_iff.mp h with rfl | h
      · exact absurd (List.mem_append_right _ (List.mem_singleton_self i)) hnot
      · exact h
    · exact absurd (h.subset (List.mem_append_right _ (List.mem_singleton_self i))) hnot

theorem read_starts {att : Bool} {f : Form} {now : Int} {k : Credential → Challenge → User → Task}
    {n : Nat} {c : Credential} {name : String} (hs : Submits app f n c name)
    (hc : isAttestation c.response = att) (r : Reply) : readTask app att f now k ≠ .done r := by
  obtain ⟨cid, text, d, h1, h2, h3, h4, h5, h6⟩ := hs
  have hp : parseForm app.env f = .ok (cid, c, name) :=
    parseForm_ok_iff.mpr ⟨h1, h6, text, d, h3, h4, h5⟩
  simp [readTask, hp, hc]

/-- C63, repaired, honest registration: whatever the others do, the repaired application
accepts the honest response to a challenge it issued to the user at most 60000 ms ago,
when nobody else has registered the credential id before the response is answered. -/
theorem C63_repaired_registration (codec : CodecLaws app.env) (json : JsonLaw app.env)
    {pre : List ι} {i j : ι} {f : Form} {now t : Int} {n : Nat} {ch key : Bytes}
    {name chText : String} {c : Credential} {cdj ob raw : Bytes} {ad : AuthData}
    {acd : AttestedCredentialData} {k : CPK}
    -- the challenge was issued, then the response sent
    (hpre : pre <+: sched) (hi : IssuedBy (atomicAnswer app reqs) reqs pre j n ch t name)
    (ht : now - t ≤ 60000)
    (hreq : reqs i = .registrationResponse f now) (hnot : i ∉ pre) (hcount : 4 ≤ sched.count i)
    -- the form and the response of the browser
    (hf : Submits app f n c name) (hresp : c.response = .attestation cdj ob)
    (hcdj : ClientDataText "webauthn.create" chText "http://localhost:5000" none cdj)
    (hch : Base64UrlText chText ch) (hob : EncodedNoneAttestation app.env raw ob)
    -- the authenticator data
    (had : EncodedAuthData app.env ad raw) (hacd : ad.attested = some acd)
    (hk : acd.credentialPublicKey = some k) (hkey : coseKey app.env k = .ok key)
    (hrp : RpHashOk app.env raw "localhost") (hup : FlagSet raw 0)
    -- the credential id is new
    (hnew : ∀ p j name k, NotYet (atomicAnswer app reqs) sched i p →
      ¬ RegisteredBy (atomicAnswer app reqs) app reqs p j c.rawId name k) :
    atomicAnswer app reqs sched i = some success := by
  obtain ⟨p, r, h1, h2, h3, h4⟩ := response_at (app := app) (reqs := reqs)
    (by rw [hreq]; exact within_read fun c ch u => within_attestation _ _ _) hpre hnot hcount (by
    rw [hreq]; exact read_starts hf (by rw [hresp]; rfl))
  refine atomicAnswer_mono h1 (h4.trans ?_)
  rcases refused_at h3 (by rw [hreq]; simp) h4 with h5 | ⟨_, _, h5, -⟩
  · have hS := C63_registration (sched := keptSched app reqs (p ++ [i]) ++ List.replicate 6 i) codec json
      ((keptSched_prefix (h2.trans (List.prefix_append p [i]))).trans (List.prefix_append _ _))
      (kept_of_issued hi) ht hreq (fun h => hnot (mem_keptSched h))
      (by rw [List.count_append, List.count_replicate_self]; omega) hf hresp hcdj hch hob had hacd hk hkey
      hrp hup fun q j' name' k' hq _ hj hR =>
        hnew p j' name' k' ⟨(List.prefix_append _ _).trans h1, h3⟩
          (registered_of_kept (fun r h => other_of_replicate hj ((List.prefix_append _ _).trans hq) h) hR)
    rw [answer_mono (List.prefix_append _ _) h5] at hS
    exact hS
  · obtain ⟨_, _, _, _, _, _, _, _, _, _, _, _, _, e, -⟩ := h5
    rw [hreq] at e
    cases e

/-- C63, repaired, honest authentication: whatever the others do, the repaired
application accepts the honest response to a challenge it issued to the user at most
60000 ms ago, with a credential that the user registered, when the counter exceeds those
of the authentications that have succeeded before the response is answered. -/
theorem C63_repaired_authentication (codec : CodecLaws app.env) (json : JsonLaw app.env)
    {pre : List ι} {i j j' : ι} {f : Form} {now t : Int} {n : Nat} {ch : Bytes}
    {name chText : String} {c : Credential} {cdj raw sig : Bytes} {handle : Option Bytes}
    {ad : AuthData} {k : CPK}
    -- the challenge was issued and the credential registered, then the response sent
    (hpre : pre <+: sched) (hi : IssuedBy (atomicAnswer app reqs) reqs pre j n ch t name)
    (ht : now - t ≤ 60000) (hr : RegisteredBy (atomicAnswer app reqs) app reqs pre j' c.rawId name k)
    (hreq : reqs i = .authenticationResponse f now) (hnot : i ∉ pre) (hcount : 6 ≤ sched.count i)
    -- the form and the response of the browser
    (hf : Submits app f n c name) (hresp : c.response = .assertion cdj raw sig handle)
    (hcdj : ClientDataText "webauthn.get" chText "http://localhost:5000" none cdj)
    (hch : Base64UrlText chText ch)
    (hhandle : ∀ h, handle = some h →
      ∃ u ∈ (serveAtomic app reqs pre).db.users, u.username = name ∧ u.handle = h)
    -- the authenticator data and its signature
    (had : EncodedAuthData app.env ad raw) (hrp : RpHashOk app.env raw "localhost")
    (hup : FlagSet raw 0) (hsig : SignedBy app.env k sig (raw ++ app.env.sha256 cdj))
    (hcounter : ∀ p j c' m, NotYet (atomicAnswer app reqs) sched i p →
      LoginBy (atomicAnswer app reqs) app reqs p c' j → c'.rawId = c.rawId → HasCounter c' m →
      m < ad.signCount) :
    atomicAnswer app reqs sched i = some success := by
  obtain ⟨p, r, h1, h2, h3, h4⟩ := response_at (app := app) (reqs := reqs)
    (within_task app (reqs i)) hpre hnot hcount (by
    rw [hreq]; exact read_starts hf (by rw [hresp]; rfl))
  have hp : NotYet (atomicAnswer app reqs) sched i p := ⟨(List.prefix_append _ _).trans h1, h3⟩
  refine atomicAnswer_mono h1 (h4.trans ?_)
  rcases refused_at h3 (by rw [hreq]; simp) h4 with h5 | ⟨id, m, h5, hb⟩
  · have hS := C63_authentication (sched := keptSched app reqs (p ++ [i]) ++ List.replicate 6 i) codec json
      ((keptSched_prefix (h2.trans (List.prefix_append p [i]))).trans (List.prefix_append _ _))
      (kept_of_issued hi) ht (kept_of_registered hr) hreq (fun h => hnot (mem_keptSched h))
      (by rw [List.count_append, List.count_replicate_self]; omega) hf hresp hcdj hch
      (by rw [(same_server app reqs pre).1]; exact hhandle) had
      hrp hup hsig (by
        rintro q j1 m hq - hj ⟨f', t', n', c', name', k', e1, e2, e3, e4, rfl, e5⟩
        exact_mod_cast hcounter p j1 c' k' hp
          ⟨f', t', n', name', e1, other_of_replicate hj ((List.prefix_append _ _).trans hq) e2, e3⟩ e4 e5)
    rw [answer_mono (List.prefix_append _ _) h5] at hS
    exact hS
  · exfalso
    obtain ⟨f', _, n', c', name', ch', u, rk, count, key, user, rp, ad', e, e1, -, -, -, -, -,
      ⟨row, r1, r2, -⟩, -, e2, rfl, rfl⟩ := h5
    rw [hreq] at e
    cases e
    obtain ⟨-, rfl, -⟩ := submits_unique hf e1
    have hk : ad'.signCount = ad.signCount :=
      hasCounter_unique (assertionOk_counter e2)
        ⟨cdj, raw, sig, handle, hresp, (authDataOf_head (encodedAuthData_of codec had)).2.2.2⟩
    have : ¬ (serveAtomic app reqs p).db.below c.rawId ad'.signCount = true := by
      rw [hb]
      simp
    rw [below_iff] at this
    refine this ⟨row, r1, r2, fun m hm => ?_⟩
    rw [← (same_server app reqs p).1] at r1
    obtain ⟨q, j1, q1, ⟨f', t', n1, c1, name1, k1, g1, g2, g3, g4, rfl, g5⟩⟩ :=
      (server_inv app reqs (keptSched app reqs p)).counts row r1 m hm
    have := hcounter p j1 c1 k1 hp ⟨f', t', n1, name1, g1, atomic_of_answer (answer_mono q1 g2), g3⟩
      (g4.trans r2) g5
    rw [hk]
    exact_mod_cast this

/-! ## Requests for a registration -/

/-- Users come from registration requests. -/
theorem atomic_users (app : App) (reqs : ι → Event) (sched : List ι) {u : User}
    (hu : u ∈ (serveAtomic app reqs sched).db.users) :
    ∃ j ch t, reqs j = .registrationRequest (some u.username) u.handle ch t ∧ j ∈ sched ∧
      NoAdd ((serveAtomic app reqs sched).tasks j) := by
  induction sched using List.reverseRecOn with
  | nil => cases hu
  | append_singleton sched i ih =>
    have old : u ∈ (serveAtomic app reqs sched).db.users → ∃ j ch t,
        reqs j = .registrationRequest (some u.username) u.handle ch t ∧ j ∈ sched ++ [i] ∧
          NoAdd ((serveAtomic app reqs (sched ++ [i])).tasks j) := by
      intro hu
      obtain ⟨j, ch, t, h1, h2, h3⟩ := ih hu
      refine ⟨j, ch, t, h1, List.mem_append_left _ h2, ?_⟩
      by_cases hj : j = i
      · subst hj
        rw [atomicStep_task]
        exact h3.atomicStep
      · rw [serveAtomic_snoc]
        simp only [Server.atomicStep, if_neg hj]
        exact h3
    rw [atomicStep_db] at hu
    rcases (same_server app reqs sched).2 i with ⟨-, hn⟩ | ⟨name, hd, ch, now, he, -, ht⟩ | ⟨ht, -⟩
    · refine old ?_
      cases ht : (serveAtomic app reqs sched).tasks i with
      | addUser => rw [ht] at hn; exact absurd hn id
      | setCount id n k =>
        rw [ht] at hu
        simp only [Task.atomicStep] at hu
        split at hu <;> exact hu
      | addChallenge ch time n k =>
        rw [ht] at hu
        simp only [Task.atomicStep, Task.step] at hu
        rcases addChallenge_cases (serveAtomic app reqs sched).db ch time n with e' | ⟨-, e'⟩ <;>
          rw [e'] at hu <;> exact hu
      | addCredential row k =>
        rw [ht] at hu
        simp only [Task.atomicStep, Task.step] at hu
        rcases addCredential_cases (serveAtomic app reqs sched).db row with e' | ⟨-, e'⟩ <;>
          rw [e'] at hu <;> exact hu
      | _ => rw [ht] at hu; exact hu
    · rcases ht with ht | ht
      · rw [ht, he] at hu
        exact old hu
      · rw [ht] at hu
        simp only [Task.atomicStep] at hu
        cases hn : (serveAtomic app reqs sched).db.userNamed name with
        | some v =>
          rw [hn] at hu
          exact old hu
        | none =>
          rw [hn] at hu
          simp only at hu
          rcases addUser_cases (serveAtomic app reqs sched).db name hd with e' | ⟨-, e'⟩ <;> rw [e'] at hu
          · exact old hu
          · rcases List.mem_append.mp hu with hu | hu
            · exact old hu
            · rw [List.mem_singleton] at hu
              subst hu
              refine ⟨i, ch, now, he, List.mem_append_right _ (List.mem_singleton_self i), ?_⟩
              rw [atomicStep_task, ht]
              simp only [Task.atomicStep, hn]
              exact noAdd_after _ _ _ _
    · rw [ht] at hu
      exact old hu

/-- C63, repaired: a request for a registration is answered with a challenge, whatever the
others do, when nobody else is given the same random bytes. -/
theorem C63_repaired_registration_request {i : ι} {name : String} {hd ch : Bytes} {t : Int}
    (hreq : reqs i = .registrationRequest (some name) hd ch t) (hcount : 3 ≤ sched.count i)
    (hhandle : ∀ j name' hd' ch' t', j ∈ sched → j ≠ i →
      reqs j = .registrationRequest (some name') hd' ch' t' → hd' ≠ hd)
    (hfresh : ∀ j n' t' name', j ≠ i →
      ¬ IssuedBy (atomicAnswer app reqs) reqs sched j n' ch t' name') :
    ∃ n, IssuedBy (atomicAnswer app reqs) reqs sched i n ch t name := by
  -- how far the request is
  have main : ∀ p, p <+: sched →
      (p.count i = 0 ∧ (serveAtomic app reqs p).tasks i = task app (reqs i)) ∨
      (p.count i = 1 ∧ (serveAtomic app reqs p).tasks i = .addUser name hd (afterAdd name ch t)) ∨
      (p.count i ≤ 2 ∧ ∃ u, (serveAtomic app reqs p).tasks i = creationTask name ch t u) ∨
      ∃ r n, (serveAtomic app reqs p).tasks i = .done r ∧ Tells r n := by
    intro p
    induction p using List.reverseRecOn with
    | nil => exact fun _ => Or.inl ⟨rfl, rfl⟩
    | append_singleton p j ih =>
      intro hp
      have hp' : p <+: sched := (List.prefix_append _ _).trans hp
      by_cases hij : i = j
      · subst hij
        rw [atomicStep_task, List.count_append, List.count_singleton_self]
        rcases ih hp' with ⟨h1, h2⟩ | ⟨h1, h2⟩ | ⟨h1, u, h2⟩ | ⟨r, n, h1, h2⟩
        · rw [h2, hreq, start_atomic]
          cases hu : (serveAtomic app reqs p).db.userNamed name with
          | some u =>
            rw [start_some hu]
            exact Or.inr (Or.inr (Or.inl ⟨by omega, u, rfl⟩))
          | none =>
            rw [start_none hu]
            exact Or.inr (Or.inl ⟨by omega, rfl⟩)
        · rw [h2]
          simp only [Task.atomicStep]
          cases hu : (serveAtomic app reqs p).db.userNamed name with
          | some u => exact Or.inr (Or.inr (Or.inl ⟨by omega, u, rfl⟩))
          | none =>
            simp only
            rcases addUser_cases (serveAtomic app reqs p).db name hd with e | ⟨-, e⟩
            · exfalso
              unfold Db.addUser at e
              rw [if_neg] at e
              · cases e
              · rw [List.any_eq_true]
                rintro ⟨u, hu', he⟩
                simp only [Bool.or_eq_true, beq_iff_eq] at he
                rcases he with he | he
                · rw [Db.userNamed, List.find?_eq_none] at hu
                  exact hu u hu' (by simpa using he)
                · obtain ⟨j, ch', t', e1, e2, e3⟩ := atomic_users app reqs p hu'
                  have hj : j ≠ i := by
                    rintro rfl
                    rw [h2] at e3
                    exact e3
                  exact hhandle j _ _ _ _ (hp'.subset e2) hj e1 he
            · rw [e]
              exact Or.inr (Or.inr (Or.inl ⟨by omega, _, rfl⟩))
        · rw [h2]
          right; right; right
          simp only [creationTask, Task.atomicStep, Task.step]
          rcases addChallenge_cases (serveAtomic app reqs p).db ch t u.id with e | ⟨-, e⟩
          · exfalso
            unfold Db.addChallenge at e
            rw [if_neg] at e
            · cases e
            · rw [List.any_eq_true]
              rintro ⟨c, hc, he⟩
              rw [beq_iff_eq] at he
              rw [← (same_server app reqs p).1] at hc
              obtain ⟨q, j, v, q1, -, -, q2⟩ := (server_inv app reqs _).challenges c hc
              rw [he] at q2
              have q3 := issued_of_kept (pre := p)
                (fun r h => atomic_of_answer (answer_mono q1 h)) q2
              by_cases hj : j = i
              · subst hj
                obtain ⟨⟨_, _, q4⟩, -⟩ := q3
                rw [atomicAnswer_some, h2] at q4
                cases q4
              · obtain ⟨⟨key, v', q4⟩, q5⟩ := q3
                exact hfresh j _ _ _ hj ⟨⟨key, v', atomicAnswer_mono hp' q4⟩, q5⟩
          · rw [e]
            obtain ⟨v, hv, -⟩ := creation_reply ((serveAtomic app reqs p).db.challenges.length + 1)
              { name := name, id := u.handle, displayName := name } ch
            exact ⟨_, _, rfl, _, v, hv⟩
        · rw [h1]
          exact Or.inr (Or.inr (Or.inr ⟨r, n, rfl, h2⟩))
      · have hc : (p ++ [j]).count i = p.count i := by
          rw [List.count_append, List.count_singleton]
          simp [Ne.symm hij]
        rw [hc, serveAtomic_snoc]
        simp only [Server.atomicStep, if_neg hij]
        exact ih hp'
  rcases main sched (List.prefix_refl _) with ⟨h, -⟩ | ⟨h, -⟩ | ⟨h, -⟩ | ⟨r, n, h, key, v, rfl⟩
  · omega
  · omega
  · omega
  · exact ⟨n, ⟨key, v, atomicAnswer_some.mpr h⟩, Or.inl ⟨hd, hreq⟩⟩

end WebAuthn.Flask
