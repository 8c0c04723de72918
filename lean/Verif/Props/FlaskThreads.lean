import Verif.Lemmas.FlaskThreads

/-!
# The example application with requests in progress at the same time (C63)

`reqs i` is the request of the thread `i`, `sched` any order of the statements of all
threads.  An adversary who chooses requests by the answers to earlier ones is some
`reqs`; a request that was cut off is one that `sched` does not continue.
-/

namespace WebAuthn.Flask

open WebAuthn WebAuthn.Spec WebAuthn.Props

variable {ι : Type} [DecidableEq ι] {app : App} {reqs : ι → Event} {sched : List ι}

/-! ## Every request is answered -/

/-- The request is answered after at most `n` statements. -/
def Within : Nat → Task → Prop
  | _, .done _ => True
  | 0, _ => False
  | n + 1, .userNamed _ k => ∀ x, Within n (k x)
  | n + 1, .userOfHandle _ k => ∀ x, Within n (k x)
  | n + 1, .userOfId _ k => ∀ x, Within n (k x)
  | n + 1, .credential _ k => ∀ x, Within n (k x)
  | n + 1, .credentialsOf _ k => ∀ x, Within n (k x)
  | n + 1, .challenge _ k => ∀ x, Within n (k x)
  | n + 1, .addUser _ _ k => ∀ x, Within n (k x)
  | n + 1, .addChallenge _ _ _ k => ∀ x, Within n (k x)
  | n + 1, .addCredential _ k => ∀ x, Within n (k x)
  | n + 1, .setCount _ _ k => Within n k

theorem within_done (n : Nat) (r : Reply) : Within n (.done r) := by
  cases n <;> trivial

theorem Within.step {n : Nat} {t : Task} {db : Db} (h : Within (n + 1) t) :
    Within n (t.step db).1 := by
  cases t with
  | done r => exact within_done n r
  | setCount => exact h
  | _ => exact h _

theorem Within.mono {n : Nat} {t : Task} (h : Within n t) : Within (n + 1) t := by
  induction n generalizing t with
  | zero =>
    cases t with
    | done => trivial
    | _ => exact h.elim
  | succ n ih =>
    cases t with
    | done => trivial
    | setCount => exact ih h
    | _ => exact fun x => ih (h x)

theorem within_zero {t : Task} (h : Within 0 t) : ∃ r, t = .done r := by
  cases t with
  | done r => exact ⟨r, rfl⟩
  | _ => exact h.elim

theorem within_read {att : Bool} {f : Form} {now : Int} {k : Credential → Challenge → User → Task}
    {n : Nat} (h : ∀ c ch u, Within n (k c ch u)) : Within (n + 2) (readTask app att f now k) := by
  unfold readTask
  split
  · split <;> exact within_done _ _
  · split
    · exact within_done _ _
    · intro ch
      cases ch with
      | none => exact within_done _ _
      | some ch =>
        intro u
        cases u with
        | none => exact within_done _ _
        | some u =>
          simp only
          split
          · exact within_done _ _
          · exact h _ _ _

theorem within_attestation (env : Env) (m : String) (a : AttestationArgs) :
    Within 2 (handlerTask env m (attestationProg env a)) := by
  unfold attestationProg
  cases attestationChecks env a with
  | error e => exact within_done _ _
  | ok r =>
    simp only [handlerTask]
    cases r.att.authData.attested with
    | none => exact within_done _ _
    | some acd =>
      intro u
      cases u with
      | none => exact within_done _ _
      | some u =>
        simp only
        cases acd.credentialPublicKey with
        | none => exact within_done _ _
        | some k =>
          simp only
          cases coseKey env k with
          | error e => exact within_done _ _
          | ok key =>
            intro x
            cases x <;> exact within_done _ _

theorem within_assertion (env : Env) (m : String) (a : AssertionArgs) :
    Within 4 (handlerTask env m (assertionProg env a)) := by
  have from_ : ∀ allowed w, Within 2 (handlerTask env m (assertionProgFrom env a allowed w)) := by
    intro allowed w
    unfold assertionProgFrom
    cases checkRead w with
    | error e => exact within_done _ _
    | ok cd =>
      simp only
      cases assertionChecks env a allowed cd with
      | error e => exact within_done _ _
      | ok r =>
        intro c
        cases c <;> exact within_done _ _
  unfold assertionProg
  cases assertionPre env a with
  | error e => exact within_done _ _
  | ok allowed =>
    simp only [handlerTask]
    intro c
    cases c with
    | none => exact (from_ _ _).mono
    | some c =>
      simp only
      cases parseCoseKeyBytes env c.key with
      | error e => exact (from_ _ _).mono
      | ok key =>
        intro u
        cases u <;> exact from_ _ _

theorem within_task (app : App) (e : Event) : Within 6 (task app e) := by
  have creation : ∀ name ch t u, Within 1 (creationTask name ch t u) := by
    intro name ch t u x
    cases x <;> exact within_done _ _
  cases e with
  | registrationRequest name hd ch t =>
    cases name with
    | none => exact within_done _ _
    | some name =>
      intro u
      cases u with
      | some u => exact (creation _ _ _ _).mono.mono.mono.mono
      | none =>
        intro x
        cases x with
        | error e => exact within_done _ _
        | ok u => exact (creation _ _ _ _).mono.mono.mono
  | authenticationRequest name ch t =>
    cases name with
    | none => exact within_done _ _
    | some name =>
      intro u
      cases u with
      | none => exact within_done _ _
      | some u =>
        intro rows x
        cases x <;> exact within_done _ _
  | registrationResponse f t =>
    exact within_read fun c ch u => (within_attestation _ _ _).mono.mono
  | authenticationResponse f t =>
    exact within_read fun c ch u => within_assertion _ _ _

theorem within_sched (app : App) (reqs : ι → Event) (sched : List ι) (i : ι) :
    Within (6 - sched.count i) ((serveAll app reqs sched).tasks i) := by
  induction sched using List.reverseRecOn with
  | nil => exact within_task app (reqs i)
  | append_singleton sched j ih =>
    rw [serveAll_snoc, List.count_append]
    simp only [Server.step]
    by_cases h : i = j
    · subst h
      rw [if_pos rfl]
      simp only [List.count_singleton_self]
      generalize hn : 6 - sched.count i = n at ih
      cases n with
      | zero =>
        obtain ⟨r, hr⟩ := within_zero ih
        rw [hr]
        exact within_done _ _
      | succ n =>
        rw [show 6 - (sched.count i + 1) = n by omega]
        exact ih.step
    · rw [if_neg h]
      simp only [List.count_singleton, beq_iff_eq, Ne.symm h, if_false, Nat.add_zero]
      exact ih

/-- C63: whatever the others do, a request is answered after at most six
statements. -/
theorem C63_answered {i : ι} (h : 6 ≤ sched.count i) : ∃ r, answer app reqs sched i = some r := by
  have := within_sched app reqs sched i
  rw [show 6 - sched.count i = 0 by omega] at this
  obtain ⟨r, hr⟩ := within_zero this
  exact ⟨r, answer_some.mpr hr⟩

theorem steps_alone (n : Nat) {i : ι} {db : Db} {t : Task} (h : Within n t)
    (ht : (serveAll app reqs sched).tasks i = t) (hdb : (serveAll app reqs sched).db = db) :
    (serveAll app reqs (sched ++ List.replicate n i)).tasks i = .done (t.run db).1 ∧
      (serveAll app reqs (sched ++ List.replicate n i)).db = (t.run db).2 := by
  induction n generalizing sched t db with
  | zero =>
    obtain ⟨r, rfl⟩ := within_zero h
    rw [List.replicate_zero, List.append_nil]
    exact ⟨ht, hdb⟩
  | succ n ih =>
    have e : (t.step db).1.run (t.step db).2 = t.run db := by
      cases t <;> rfl
    rw [List.replicate_succ, ← List.singleton_append, ← List.append_assoc, ← e]
    refine ih h.step ?_ ?_ <;> rw [serveAll_snoc]
    · simp only [Server.step, if_true, ht, hdb]
    · simp only [Server.step, ht, hdb]

/-- C63: a request that nobody interrupts is handled as the model of whole requests
says. -/
theorem C63_uninterrupted {i : ι} (h : i ∉ sched) :
    answer app reqs (sched ++ List.replicate 6 i) i =
        some (step app (reqs i) (serveAll app reqs sched).db).1 ∧
      (serveAll app reqs (sched ++ List.replicate 6 i)).db =
        (step app (reqs i) (serveAll app reqs sched).db).2 := by
  obtain ⟨h1, h2⟩ := steps_alone 6 (within_task app (reqs i)) (task_start h) rfl
  rw [task_run] at h1 h2
  exact ⟨answer_some.mpr h1, h2⟩

/-! ## The tables -/

/-- C63: whatever the order of the statements, user names, user handles, challenges
and credential ids stay unique. -/
theorem C63_tables (app : App) (reqs : ι → Event) (sched : List ι) :
    Keyed (serveAll app reqs sched).db :=
  (server_inv app reqs sched).keyed

/-- What a request that was answered with success did. -/
theorem success_cases {i : ι} (h : answer app reqs sched i = some success) :
    (∃ row, Adds app (reqs i) (serveAll app reqs sched).db row ∧
      HasRow (serveAll app reqs sched).db row.id row.key row.userId) ∨
    ∃ id m, Sets app (reqs i) (serveAll app reqs sched).db id m := by
  rcases served h (Or.inl rfl) with ⟨-, h⟩ | ⟨-, h⟩ | ⟨_, _, _, _, ⟨_, _, h⟩, -⟩
  · exact Or.inl h
  · exact Or.inr h
  · cases h

/-- Of the requests that did the same thing, the later found that it was done. -/
theorem once {P : List ι → ι → Prop}
    (at_ : ∀ p j, P p j → ∃ q, q ++ [j] <+: p ∧ answer app reqs q j = none ∧ P (q ++ [j]) j)
    (mono : ∀ p q j, p <+: q → P p j → P q j)
    (later : ∀ p j j', j ≠ j' → P p j → answer app reqs p j' = none → ¬ P (p ++ [j']) j')
    {j j' : ι} (h : P sched j) (h' : P sched j') : j = j' := by
  by_contra hne
  obtain ⟨p, hp1, hp2, hp3⟩ := at_ sched j h
  obtain ⟨q, hq1, hq2, hq3⟩ := at_ sched j' h'
  rcases List.prefix_or_prefix_of_prefix hp1 hq1 with hpq | hpq
  · rcases List.prefix_concat_iff.mp hpq with e | e
    · exact hne (List.append_inj_right' e rfl |> List.singleton_inj.mp)
    · exact later q j j' hne (mono _ _ _ e hp3) hq2 hq3
  · rcases List.prefix_concat_iff.mp hpq with e | e
    · exact hne (List.append_inj_right' e rfl |> List.singleton_inj.mp).symm
    · exact later p j' j (Ne.symm hne) (mono _ _ _ e hq3) hp2 hp3

theorem step_task (sched : List ι) (j : ι) : (serveAll app reqs (sched ++ [j])).tasks j =
    (((serveAll app reqs sched).tasks j).step (serveAll app reqs sched).db).1 := by
  rw [serveAll_snoc]
  simp only [Server.step, if_true]

/-- A registered credential is in the tables, with its user. -/
theorem registeredAt_row {j : ι} {id : Bytes} {name : String} {k : CPK}
    (h : RegisteredAt app reqs sched j id name k) : ∃ u key, u ∈ (serveAll app reqs sched).db.users ∧
      u.username = name ∧ coseKey app.env k = .ok key ∧
      HasRow (serveAll app reqs sched).db id key u.id := by
  obtain ⟨f, t, n, c, cdj, ob, o, raw, acd, h1, h2, h3, h4, h5, h6, h7, h8⟩ := h
  rcases success_cases h2 with ⟨row, ⟨f', _, _, c', _, _, u, o', raw', acd', k', e1, e2, -, -, -, hu1,
    hu2, ⟨cdj', ob', e4, -, e5, -⟩, e6, e7, e8, e9⟩, hr⟩ |
    ⟨_, _, ⟨_, _, _, _, _, _, _, _, _, _, _, _, _, e, -⟩⟩
  · rw [h1] at e1
    cases e1
    obtain ⟨-, rfl, rfl⟩ := submits_unique h3 e2
    have e4 : c.response = _ := e4
    rw [h5] at e4
    cases e4
    have hk : k' = k := by
      have := parseAttestationObject_ok_iff.mpr h6
      rw [parseAttestationObject_ok_iff.mpr e5] at this
      cases this
      rw [h7] at e6
      cases e6
      rw [h8] at e7
      exact (Option.some.inj e7).symm
    subst hk
    have i1 := congrArg CredentialRow.id e9
    have i2 := congrArg CredentialRow.userId e9
    refine ⟨u, row.key, hu1, hu2, e8, ?_⟩
    rw [← h4, ← show row.id = c.rawId from i1, ← show row.userId = u.id from i2]
    exact hr
  · rw [h1] at e
    cases e

/-- An issued challenge is in the tables, with its user. -/
theorem issuedAt_row {j : ι} {n : Nat} {ch : Bytes} {t : Int} {name : String}
    (h : IssuedAt app reqs sched j n ch t name) : ∃ u, u ∈ (serveAll app reqs sched).db.users ∧
      u.username = name ∧ (⟨n, ch, t, u.id⟩ : Challenge) ∈ (serveAll app reqs sched).db.challenges := by
  obtain ⟨⟨key, v, h1⟩, h2⟩ := h
  rcases served h1 (Or.inr ⟨_, rfl⟩) with ⟨h3, -⟩ | ⟨h3, -⟩ |
    ⟨m, ch', t', i, ⟨_, _, h3⟩, ⟨u, hu, rfl, h4⟩, h5⟩
  · cases h3
  · cases h3
  · have hm : n = m := by
      simp only [Reply.json.injEq, PyVal.dict.injEq, List.cons.injEq, Prod.mk.injEq,
        PyVal.int.injEq] at h3
      omega
    subst hm
    have : u.username = name ∧ ch' = ch ∧ t' = t := by
      rcases h2 with ⟨hd, h2⟩ | h2 <;> rcases h4 with ⟨hd', h4⟩ | h4 <;> rw [h2] at h4 <;> cases h4 <;>
        exact ⟨rfl, rfl, rfl⟩
    obtain ⟨e1, rfl, rfl⟩ := this
    exact ⟨u, hu, e1, h5⟩

theorem registeredAt_mono {p q : List ι} {j : ι} {id : Bytes} {name : String} {k : CPK} (hpq : p <+: q)
    (h : RegisteredAt app reqs p j id name k) : RegisteredAt app reqs q j id name k := by
  obtain ⟨f, t, n, c, cdj, ob, o, raw, acd, h1, h2, h3⟩ := h
  exact ⟨f, t, n, c, cdj, ob, o, raw, acd, h1, answer_mono hpq h2, h3⟩

theorem issuedAt_mono {p q : List ι} {j : ι} {n : Nat} {ch : Bytes} {t : Int} {name : String}
    (hpq : p <+: q) (h : IssuedAt app reqs p j n ch t name) : IssuedAt app reqs q j n ch t name := by
  obtain ⟨⟨key, v, h1⟩, h2⟩ := h
  exact ⟨⟨key, v, answer_mono hpq h1⟩, h2⟩

theorem authenticatedAt_mono {p q : List ι} {j : ι} {id : Bytes} {m : Int} (hpq : p <+: q)
    (h : AuthenticatedAt app reqs p j id m) : AuthenticatedAt app reqs q j id m := by
  obtain ⟨f, t, n, c, name, k, h1, h2, h3⟩ := h
  exact ⟨f, t, n, c, name, k, h1, answer_mono hpq h2, h3⟩

/-- C63: at most one request registers a credential id. -/
theorem C63_registered_once {j j' : ι} {id : Bytes} {name name' : String} {k k' : CPK}
    (h : RegisteredAt app reqs sched j id name k) (h' : RegisteredAt app reqs sched j' id name' k') :
    j = j' := by
  refine once (app := app) (reqs := reqs) (P := fun p j => ∃ name k, RegisteredAt app reqs p j id name k)
    ?_ ?_ ?_ ⟨_, _, h⟩ ⟨_, _, h'⟩
  · rintro p j ⟨name, k, f, t, n, c, cdj, ob, o, raw, acd, h1, h2, h3⟩
    obtain ⟨q, hq1, hq2, hq3⟩ := served_at h2 (Or.inl rfl)
    exact ⟨q, hq1, hq2, name, k, f, t, n, c, cdj, ob, o, raw, acd, h1, hq3, h3⟩
  · rintro p q j hpq ⟨name, k, h⟩
    exact ⟨name, k, registeredAt_mono hpq h⟩
  · rintro p j j' - ⟨name, k, hj⟩ hn ⟨name', k', f, t, n, c, cdj, ob, o, raw, acd, h1, h2, h3, h4, h5, -⟩
    obtain ⟨u, key, -, -, -, r, hr1, hr2, -⟩ := registeredAt_row hj
    have inv := server_inv app reqs p
    rw [answer_some, step_task] at h2
    rcases inv.fine j' with hs | ⟨r', hs, -⟩
    · rcases hs.step inv.keyed with ⟨e, -⟩ | ⟨_, _, _, r', e, ⟨_, _, e'⟩, -⟩ | ⟨row, -, ha, hf, -⟩ |
        ⟨_, _, -, hs, -⟩
      · rw [h2] at e
        exact e.1 rfl
      · rw [h2] at e
        cases e
        cases e'
      · obtain ⟨f', _, _, c', _, _, _, _, _, _, _, e1, e2, -, -, -, -, -, -, -, -, -, e3⟩ := ha
        rw [h1] at e1
        cases e1
        obtain ⟨-, rfl, -⟩ := submits_unique h3 e2
        have := congrArg CredentialRow.id e3
        exact hf r hr1 (by rw [hr2, ← h4]; exact this.symm)
      · obtain ⟨_, _, _, _, _, _, _, _, _, _, _, _, _, e, -⟩ := hs
        rw [h1] at e
        cases e
    · rw [answer_some.mpr hs] at hn
      cases hn

/-- C63: no two requests are answered with the same challenge number or the same
bytes. -/
theorem C63_issued_once {j j' : ι} {n n' : Nat} {ch ch' : Bytes} {t t' : Int} {name name' : String}
    (h : IssuedAt app reqs sched j n ch t name) (h' : IssuedAt app reqs sched j' n' ch' t' name')
    (he : n = n' ∨ ch = ch') : j = j' := by
  have key := C63_tables app reqs sched
  obtain ⟨u, -, -, hr⟩ := issuedAt_row h
  obtain ⟨u', -, -, hr'⟩ := issuedAt_row h'
  have e : (⟨n, ch, t, u.id⟩ : Challenge) = ⟨n', ch', t', u'.id⟩ := by
    rcases he with he | he
    · obtain ⟨a, ha⟩ := List.mem_iff_getElem?.mp hr
      obtain ⟨b, hb⟩ := List.mem_iff_getElem?.mp hr'
      have h1 := key.challengeIds a _ ha
      have h2 := key.challengeIds b _ hb
      simp only at h1 h2
      have : a = b := by omega
      subst this
      rw [ha] at hb
      exact Option.some.inj hb
    · exact pairwise_unique (f := Challenge.request) key.requests hr hr' he
  obtain ⟨rfl, rfl, -⟩ := Challenge.mk.inj e
  refine once (app := app) (reqs := reqs) (P := fun p j => ∃ t name, IssuedAt app reqs p j n ch t name)
    ?_ ?_ ?_ ⟨_, _, h⟩ ⟨_, _, h'⟩
  · rintro p j ⟨t, name, ⟨key, v, h1⟩, h2⟩
    obtain ⟨q, hq1, hq2, hq3⟩ := served_at h1 (Or.inr ⟨_, rfl⟩)
    exact ⟨q, hq1, hq2, t, name, ⟨key, v, hq3⟩, h2⟩
  · rintro p q j hpq ⟨t, name, h⟩
    exact ⟨t, name, issuedAt_mono hpq h⟩
  · rintro p j j' - ⟨t, name, hj⟩ hn ⟨t', name', ⟨key, v, h1⟩, h2⟩
    obtain ⟨u, -, -, hr⟩ := issuedAt_row hj
    have inv := server_inv app reqs p
    rw [answer_some, step_task] at h1
    rcases inv.fine j' with hs | ⟨r', hs, -⟩
    · rcases hs.step inv.keyed with ⟨e, -⟩ | ⟨ch', _, _, r', e, -, ⟨_, -, -, ha⟩, hf, -⟩ |
        ⟨row, e, -⟩ | ⟨_, _, e, -⟩
      · rw [h1] at e
        exact e.2 _ rfl
      · have : ch' = ch := by
          rcases h2 with ⟨hd, h2⟩ | h2 <;> rcases ha with ⟨hd', ha⟩ | ha <;> rw [h2] at ha <;> cases ha <;>
            rfl
        exact hf _ hr this.symm
      · rw [h1] at e
        cases e
      · rw [h1] at e
        cases e
    · rw [answer_some.mpr hs] at hn
      cases hn

/-! ## Logins -/

/-- C63: a successful authentication of the user `name` was preceded by a successful
registration of the same credential id for the same user, and its signature is by
the key that was attested then. -/
theorem C63_login (codec : CodecLaws app.env) {i : ι} {f : Form} {now : Int}
    (hi : reqs i = .authenticationResponse f now) (h : answer app reqs sched i = some success) :
    ∃ n c name pre j k cdj raw sig handle, Submits app f n c name ∧ Before app reqs sched i pre ∧
      RegisteredAt app reqs pre j c.rawId name k ∧ c.response = .assertion cdj raw sig handle ∧
      SignedBy app.env k sig (raw ++ app.env.sha256 cdj) := by
  obtain ⟨p, hp1, hp2, hp3⟩ := served_at h (Or.inl rfl)
  rcases success_cases hp3 with ⟨_, ⟨_, _, _, _, _, _, _, _, _, _, _, e, -⟩, -⟩ |
    ⟨_, _, ⟨f', _, n, c, name, ch, u, rk, count, key, user, rp, ad, e, h1, -, -, -, h2, h3,
      ⟨r, hr1, hr2, hr3, hr4⟩, h5, ⟨cdj, raw, sig, handle, h6, -, -, -, -, h7, -⟩, -, -⟩⟩
  · rw [hi] at e
    cases e
  rw [hi] at e
  cases e
  have inv := server_inv app reqs (p ++ [i])
  obtain ⟨pre, j, v, k, h8, h9, h10, h11, h12⟩ := inv.credentials r hr1
  obtain rfl : v = u := inv.keyed.userId_unique h9 h2 (h10.trans hr4)
  obtain ⟨f', t', n', c', cdj', ob, o, raw', acd, e0, e1, e2, e3, e4, e5, e6, e7⟩ := h11
  have hd : ∃ d, CoseKeyOf d k := attested_key_dict e5 e6 e7
  have := C27_stored_key codec (hd.imp fun _ => parseCoseKeyDict_ok_iff.mpr) h12
  rw [hr3, h5] at this
  cases this
  have hij : j ≠ i := by
    rintro rfl
    rw [hi] at e0
    cases e0
  obtain ⟨pre', hb, hb'⟩ := before_of hp1 hp2 h8 hij
  rw [← hb'] at e1
  exact ⟨n, c, name, pre', j, k, cdj, raw, sig, handle, h1, hb,
    ⟨f', t', n', c', cdj', ob, o, raw', acd, e0, e1, h3 ▸ e2, e3.trans hr2, e4, e5, e6, e7⟩, h6,
    signedBy_asStored.mp h7⟩

/-- C63: a response that is answered with success names a challenge that a request
was answered with before, no more than 60000 ms earlier by the clock, and its client data
contain the bytes of that challenge. -/
theorem C63_fresh_challenge {i : ι} {f : Form} {now : Int} {n : Nat} {c : Credential} {name : String}
    (hi : reqs i = .registrationResponse f now ∨ reqs i = .authenticationResponse f now)
    (hs : Submits app f n c name) (h : answer app reqs sched i = some success) :
    ∃ pre j ch t name' cdj d text, Before app reqs sched i pre ∧
      IssuedAt app reqs pre j n ch t name' ∧ now - t ≤ 60000 ∧
      ((∃ ob, c.response = .attestation cdj ob) ∨
        ∃ raw sig handle, c.response = .assertion cdj raw sig handle) ∧
      ClientJson app.env cdj d ∧ Lookup d (.str "challenge") (.str text) ∧ Base64UrlText text ch := by
  obtain ⟨p, hp1, hp2, hp3⟩ := served_at h (Or.inl rfl)
  have inv := server_inv app reqs (p ++ [i])
  have key : ∀ row ∈ (serveAll app reqs (p ++ [i])).db.challenges, row.id = n → ∃ pre j name',
      Before app reqs sched i pre ∧ IssuedAt app reqs pre j n row.request row.timestamp name' := by
    intro row hrow hn
    obtain ⟨pre, j, u, h8, -, -, ⟨k, v, h9⟩, h10⟩ := inv.challenges row hrow
    have hij : j ≠ i := by
      rintro rfl
      rcases hi with hi | hi <;> rw [hi] at h10 <;> rcases h10 with ⟨_, h10⟩ | h10 <;> cases h10
    obtain ⟨pre', hb, hb'⟩ := before_of hp1 hp2 h8 hij
    exact ⟨pre', j, u.username, hb, ⟨k, v, by rw [hb', h9, hn]⟩, h10⟩
  rcases success_cases hp3 with
    ⟨_, ⟨f', _, n', c', name', ch, u, o, raw, acd, k, e, h1, h2, h3, h4, -, -,
      ⟨cdj, ob, h5, ⟨cd, ⟨d, h6, -, h7, -⟩, -, h8, -⟩, -⟩, -⟩, -⟩ |
    ⟨_, _, ⟨f', _, n', c', name', ch, u, rk, count, k, user, rp, ad, e, h1, h2, h3, h4, -, -, -, -,
      ⟨cdj, raw, sig, hd, h5, -, -, ⟨cd, ⟨d, h6, -, h7, -⟩, -, h8, -⟩, -⟩, -, -⟩⟩
  · have ef : f' = f ∧ (‹Int› : Int) = now := by
      rcases hi with hi | hi <;> rw [hi] at e <;> cases e
      exact ⟨rfl, rfl⟩
    obtain ⟨rfl, rfl⟩ := ef
    obtain ⟨rfl, rfl, rfl⟩ := submits_unique hs h1
    obtain ⟨pre, j, name'', hb, hj⟩ := key ch h2 h3
    exact ⟨pre, j, ch.request, ch.timestamp, name'', cdj, d, _, hb, hj, h4, Or.inl ⟨ob, h5⟩, h6, h7, h8⟩
  · have ef : f' = f ∧ (‹Int› : Int) = now := by
      rcases hi with hi | hi <;> rw [hi] at e <;> cases e
      exact ⟨rfl, rfl⟩
    obtain ⟨rfl, rfl⟩ := ef
    obtain ⟨rfl, rfl, rfl⟩ := submits_unique hs h1
    obtain ⟨pre, j, name'', hb, hj⟩ := key ch h2 h3
    exact ⟨pre, j, ch.request, ch.timestamp, name'', cdj, d, _, hb, hj, h4,
      Or.inr ⟨raw, sig, hd, h5⟩, h6, h7, h8⟩

/-- C63: a registration that succeeds was made by a client on the page of the
application, for its RP id, with a user present. -/
theorem C63_registration_scope {i : ι} {f : Form} {now : Int}
    (hi : reqs i = .registrationResponse f now) (h : answer app reqs sched i = some success) :
    ∃ n c name cdj ob o raw d text, Submits app f n c name ∧ c.response = .attestation cdj ob ∧
      ClientJson app.env cdj d ∧ Lookup d (.str "type") (.str "webauthn.create") ∧
      Lookup d (.str "origin") (.str text) ∧
      OriginOf app.env text ⟨"http", "localhost:5000", 5000⟩ ∧
      AttObjOf app.env ob o raw ∧ RpHashOk app.env raw "localhost" ∧ FlagSet raw 0 := by
  rcases success_cases h with
    ⟨_, ⟨f', _, n, c, name, ch, u, o, raw, acd, k, e, h1, -, -, -, -, -,
      ⟨cdj, ob, h2, ⟨cd, ⟨d, h3, h4, -, h5, -⟩, h6, -, h7, -⟩, h8, ⟨-, h9, h10, -⟩, -⟩, -⟩, -⟩ |
    ⟨_, _, ⟨_, _, _, _, _, _, _, _, _, _, _, _, _, e, -⟩⟩ <;> rw [hi] at e <;> cases e
  exact ⟨n, c, name, cdj, ob, o, raw, d, _, h1, h2, h3, h6 ▸ h4, h5, allowed_app h7, h8, h9, h10⟩

/-- C63: the same of an authentication. -/
theorem C63_authentication_scope {i : ι} {f : Form} {now : Int}
    (hi : reqs i = .authenticationResponse f now) (h : answer app reqs sched i = some success) :
    ∃ n c name cdj raw sig handle d text, Submits app f n c name ∧
      c.response = .assertion cdj raw sig handle ∧
      ClientJson app.env cdj d ∧ Lookup d (.str "type") (.str "webauthn.get") ∧
      Lookup d (.str "origin") (.str text) ∧
      OriginOf app.env text ⟨"http", "localhost:5000", 5000⟩ ∧
      RpHashOk app.env raw "localhost" ∧ FlagSet raw 0 := by
  rcases success_cases h with ⟨_, ⟨_, _, _, _, _, _, _, _, _, _, _, e, -⟩, -⟩ |
    ⟨_, _, ⟨f', _, n, c, name, ch, u, rk, count, k, user, r, ad, e, h1, -, -, -, -, -, -, -,
      ⟨cdj, raw, sig, handle, h2, -, h3, ⟨cd, ⟨d, h4, h5, -, h6, -⟩, h7, -, h8, -⟩, ⟨-, h9, h10, -⟩,
        -⟩, -⟩⟩ <;> rw [hi] at e <;> cases e
  have e : r = rp := by
    cases h3
    rfl
  subst e
  exact ⟨n, c, name, cdj, raw, sig, handle, d, _, h1, h2, h4, h7 ▸ h5, h6, allowed_app h8, h9, h10⟩

/-! ## Honest users -/

/-- The request is answered with `Q` after `n` more statements, if the others add
rows and change counters only and `G m` holds of the tables when the statement `m`
is executed. -/
def Live (Q : Reply → Prop) (G : Nat → Db → Prop) (m : Nat) : Nat → Task → Db → Prop
  | 0, t, _ => ∃ r, t = .done r ∧ Q r
  | n + 1, t, db => ∀ db', Grows db db' → Keyed db' → G m db' →
      Live Q G (m + 1) n (t.step db').1 (t.step db').2

theorem Live.mono {Q : Reply → Prop} {G : Nat → Db → Prop} {m n : Nat} {t : Task} {db db' : Db} (g : Grows db db')
    (h : Live Q G m n t db) : Live Q G m n t db' := by
  cases n with
  | zero => exact h
  | succ n => exact fun d g' => h d (g.trans g')

theorem live_answered {Q : Reply → Prop} {G : Nat → Db → Prop} {n : Nat} {pre : List ι} {i : ι} (hpre : pre <+: sched)
    (hi : i ∉ pre) (h : Live Q G 0 n (task app (reqs i)) (serveAll app reqs pre).db)
    (hG : ∀ p, pre <+: p → p ++ [i] <+: sched → G (p.count i) (serveAll app reqs p).db)
    (hn : n ≤ sched.count i) : ∃ r, answer app reqs sched i = some r ∧ Q r := by
  have start := task_start (app := app) (reqs := reqs) hi
  obtain ⟨post, rfl⟩ := hpre
  have main : ∀ q, q <+: post →
      ((pre ++ q).count i ≤ n → Live Q G ((pre ++ q).count i) (n - (pre ++ q).count i)
        ((serveAll app reqs (pre ++ q)).tasks i) (serveAll app reqs (pre ++ q)).db) ∧
      (n ≤ (pre ++ q).count i → ∃ r, (serveAll app reqs (pre ++ q)).tasks i = .done r ∧ Q r) := by
    intro q
    induction q using List.reverseRecOn with
    | nil =>
      intro _
      rw [List.append_nil, List.count_eq_zero_of_not_mem hi, start]
      refine ⟨fun _ => h, fun h0 => ?_⟩
      obtain rfl : n = 0 := by omega
      exact h
    | append_singleton q j ih =>
      intro hq
      obtain ⟨ih1, ih2⟩ := ih ((List.prefix_append _ _).trans hq)
      rw [← List.append_assoc]
      by_cases hij : i = j
      · subst hij
        have hc : (pre ++ q ++ [i]).count i = (pre ++ q).count i + 1 := by
          rw [List.count_append, List.count_singleton_self]
        have hstep : (pre ++ q).count i < n → Live Q G ((pre ++ q).count i + 1)
            (n - ((pre ++ q).count i + 1)) ((serveAll app reqs (pre ++ q ++ [i])).tasks i)
            (serveAll app reqs (pre ++ q ++ [i])).db := by
          intro hlt
          have := ih1 (by omega)
          rw [show n - (pre ++ q).count i = (n - ((pre ++ q).count i + 1)) + 1 by omega] at this
          have := this _ (Grows.refl _) (C63_tables app reqs _) (hG (pre ++ q) (List.prefix_append _ _)
            (by rw [List.append_assoc]; exact (List.prefix_append_right_inj pre).mpr hq))
          rw [step_task, serveAll_snoc]
          exact this
        rw [hc]
        refine ⟨fun hle => hstep (by omega), fun hle => ?_⟩
        by_cases hlt : n ≤ (pre ++ q).count i
        · obtain ⟨r, h1, h2⟩ := ih2 hlt
          exact ⟨r, by rw [step_task, h1]; rfl, h2⟩
        · have := hstep (by omega)
          rw [show n - ((pre ++ q).count i + 1) = 0 by omega] at this
          exact this
      · have hc : (pre ++ q ++ [j]).count i = (pre ++ q).count i := by
          rw [List.count_append, List.count_singleton]
          simp [Ne.symm hij]
        have ht : (serveAll app reqs (pre ++ q ++ [j])).tasks i =
            (serveAll app reqs (pre ++ q)).tasks i := by
          rw [serveAll_snoc]
          simp only [Server.step, if_neg hij]
        have g : Grows (serveAll app reqs (pre ++ q)).db (serveAll app reqs (pre ++ q ++ [j])).db := by
          rw [serveAll_snoc]
          exact Task.step_grows _ _
        rw [hc, ht]
        exact ⟨fun hle => (ih1 hle).mono g, ih2⟩
  obtain ⟨r, h1, h2⟩ := (main post (List.prefix_refl _)).2 hn
  exact ⟨r, answer_some.mpr h1, h2⟩

theorem live_success {G : Nat → Db → Prop} {n : Nat} {pre : List ι} {i : ι} (hpre : pre <+: sched)
    (hi : i ∉ pre) (h : Live (· = success) G 0 n (task app (reqs i)) (serveAll app reqs pre).db)
    (hG : ∀ p, pre <+: p → p ++ [i] <+: sched → G (p.count i) (serveAll app reqs p).db)
    (hn : n ≤ sched.count i) : answer app reqs sched i = some success := by
  obtain ⟨r, h1, rfl⟩ := live_answered hpre hi h hG hn
  exact h1

theorem Keyed.find_name {db : Db} (h : Keyed db) {u : User} (hu : u ∈ db.users) :
    db.userNamed u.username = some u :=
  find_unique hu (by simp) fun v hv hn => pairwise_unique h.names hv hu (by simpa using hn)

theorem Keyed.find_handle {db : Db} (h : Keyed db) {u : User} (hu : u ∈ db.users) :
    db.userOfHandle u.handle = some u :=
  find_unique hu (by simp) fun v hv hn => pairwise_unique h.handles hv hu (by simpa using hn)

theorem Keyed.find_id {db : Db} (h : Keyed db) {u : User} (hu : u ∈ db.users) :
    db.userOfId u.id = some u :=
  find_unique hu (by simp) fun v hv hn => h.userId_unique hv hu (by simpa using hn)

theorem Keyed.find_challenge {db : Db} (h : Keyed db) {c : Challenge} (hc : c ∈ db.challenges) :
    db.challenge (some c.id) = some c := by
  refine find_unique hc (by simp) fun v hv hn => ?_
  obtain ⟨i, hi⟩ := List.mem_iff_getElem?.mp hc
  obtain ⟨j, hj⟩ := List.mem_iff_getElem?.mp hv
  have h1 := h.challengeIds i c hi
  have h2 := h.challengeIds j v hj
  simp only [beq_iff_eq] at hn
  have : i = j := by omega
  subst this
  rw [hi] at hj
  exact (Option.some.inj hj).symm

theorem Keyed.find_credential {db : Db} (h : Keyed db) {c : CredentialRow} (hc : c ∈ db.credentials) :
    db.credential c.id = some c :=
  find_unique hc (by simp) fun v hv hn => pairwise_unique h.credentialIds hv hc (by simpa using hn)

/-- The first two statements of a response endpoint. -/
theorem live_read {Q : Reply → Prop} {G : Nat → Db → Prop} {att : Bool} {f : Form} {now : Int}
    {k : Credential → Challenge → User → Task} {db : Db} {n m : Nat} {ch : Challenge} {u : User}
    {c : Credential} (hf : Submits app f ch.id c u.username) (ha : isAttestation c.response = att)
    (hch : ch ∈ db.challenges) (hu : u ∈ db.users) (ht : now - ch.timestamp ≤ 60000)
    (h : ∀ db', Grows db db' → Keyed db' → Live Q G (m + 2) n (k c ch u) db') :
    Live Q G m (n + 2) (readTask app att f now k) db := by
  obtain ⟨cid, text, d, h1, h2, h3, h4, h5, h6⟩ := hf
  have hp : parseForm app.env f = .ok (cid, c, u.username) :=
    parseForm_ok_iff.mpr ⟨h1, h6, text, d, h3, h4, h5⟩
  intro db1 g1 k1 _
  have hc1 := k1.find_challenge (g1.challenge hch)
  simp only [readTask, hp, ha, bne_self_eq_false, Bool.false_eq_true, if_false, h2, Task.step, hc1]
  intro db2 g2 k2 _
  have hu1 := k2.find_name (g2.user (g1.user hu))
  have ht' : ¬ (now - ch.timestamp > timeout) := by
    have : timeout = 60000 := rfl
    omega
  simp only [Task.step, hu1, if_neg ht']
  exact h db2 (g1.trans g2) k2

/-- C63, honest registration: whatever the others do, the application accepts the
honest response to a challenge it issued to the user at most 60000 ms ago, when the
credential id is new at the moment of its fourth statement, the commit. -/
theorem C63_registration (codec : CodecLaws app.env) (json : JsonLaw app.env)
    {pre : List ι} {i j : ι} {f : Form} {now t : Int} {n : Nat} {ch key : Bytes}
    {name chText : String} {c : Credential} {cdj ob raw : Bytes} {ad : AuthData}
    {acd : AttestedCredentialData} {k : CPK}
    -- the challenge was issued, then the response sent
    (hpre : pre <+: sched) (hi : IssuedAt app reqs pre j n ch t name) (ht : now - t ≤ 60000)
    (hreq : reqs i = .registrationResponse f now) (hnot : i ∉ pre) (hcount : 4 ≤ sched.count i)
    -- the form and the response of the browser
    (hf : Submits app f n c name) (hresp : c.response = .attestation cdj ob)
    (hcdj : ClientDataText "webauthn.create" chText "http://localhost:5000" none cdj)
    (hch : Base64UrlText chText ch) (hob : EncodedNoneAttestation app.env raw ob)
    -- the authenticator data
    (had : EncodedAuthData app.env ad raw) (hacd : ad.attested = some acd)
    (hk : acd.credentialPublicKey = some k) (hkey : coseKey app.env k = .ok key)
    (hrp : RpHashOk app.env raw "localhost") (hup : FlagSet raw 0)
    -- the credential id is new
    (hnew : ∀ p j name k, p ++ [i] <+: sched → p.count i = 3 → j ≠ i →
      ¬ RegisteredAt app reqs p j c.rawId name k) :
    answer app reqs sched i = some success := by
  by_contra hno
  obtain ⟨u, hu, rfl, hrow⟩ := issuedAt_row hi
  -- the checks pass: a registrar that remembers the record would be given one
  obtain ⟨r, hr, hrw⟩ := handleAttestation_ok_iff.mp (C52_honest_registration codec json
    (reg := (⟨fun r _ => (.ok none, some r), fun _ s => (.ok none, s), fun _ s => (.ok none, s)⟩ :
      Registrar (Option AttestationRecord)))
    (a := attestationArgs c ⟨n, ch, t, u.id⟩ u) (s := none) hresp hcdj hch hob had hacd hrp hup
    (fun h => nomatch h) (fun l hl => nomatch hl) (expected_app _)
    (originAllowed_of (expected_app _) (List.mem_singleton.mpr rfl)) .none rfl)
  obtain rfl := Option.some.inj (Prod.mk.inj hrw).2
  refine hno (live_success (n := 4) (G := fun m db => m = 3 → ∀ r ∈ db.credentials, r.id ≠ c.rawId)
    hpre hnot ?_ ?_ hcount)
  · rw [hreq]
    refine live_read (ch := ⟨n, ch, t, u.id⟩) (c := c) (u := u) hf (by rw [hresp]; rfl) hrow hu ht ?_
    intro db1 g1 k1
    simp only [attestationProg, hr, handlerTask, hacd]
    intro db2 g2 k2 _
    have hh : db2.userOfHandle (attestationArgs c ⟨n, ch, t, u.id⟩ u).user.id = some u :=
      k2.find_handle (g2.user (g1.user hu))
    simp only [Task.step, hh, hk, hkey]
    intro db3 g3 k3 hG
    simp only [Task.step]
    rcases addCredential_cases db3 ⟨c.rawId, none, key, u.id⟩ with e | ⟨-, e⟩
    · exfalso
      unfold Db.addCredential at e
      rw [if_neg] at e
      · cases e
      · rw [List.any_eq_true]
        rintro ⟨r, hr, he⟩
        exact hG rfl r hr (by simpa using he)
    · have e' : (db3.addCredential ⟨(attestationArgs c ⟨n, ch, t, u.id⟩ u).credential.rawId, none, key,
        u.id⟩).1 = .ok () := congrArg Prod.fst e
      rw [e']
      exact ⟨_, rfl, rfl⟩
  · intro p hp1 hp2 h3 r hr he
    obtain ⟨pre', j', v, k', h4, -, -, h5, -⟩ := (server_inv app reqs p).credentials r hr
    rw [he] at h5
    have hp3 : p <+: sched := (List.prefix_append _ _).trans hp2
    by_cases hj : j' = i
    · subst hj
      obtain ⟨_, _, _, _, _, _, _, _, _, -, h6, -⟩ := h5
      exact hno (answer_mono (h4.trans hp3) h6)
    · exact hnew p j' _ k' hp2 h3 hj (registeredAt_mono h4 h5)

/-- Whatever the others do, the application accepts the honest response to a challenge
when the stored counter is smaller at the moment of its third statement. -/
theorem authentication_live (codec : CodecLaws app.env) (json : JsonLaw app.env)
    {pre : List ι} {i j j' : ι} {f : Form} {now t : Int} {n : Nat} {ch : Bytes}
    {name chText : String} {c : Credential} {cdj raw sig : Bytes} {handle : Option Bytes}
    {ad : AuthData} {k : CPK}
    -- the challenge was issued and the credential registered, then the response sent
    (hpre : pre <+: sched) (hi : IssuedAt app reqs pre j n ch t name) (ht : now - t ≤ 60000)
    (hr : RegisteredAt app reqs pre j' c.rawId name k)
    (hreq : reqs i = .authenticationResponse f now) (hnot : i ∉ pre) (hcount : 6 ≤ sched.count i)
    -- the form and the response of the browser
    (hf : Submits app f n c name) (hresp : c.response = .assertion cdj raw sig handle)
    (hcdj : ClientDataText "webauthn.get" chText "http://localhost:5000" none cdj)
    (hch : Base64UrlText chText ch)
    (hhandle : ∀ h, handle = some h →
      ∃ u ∈ (serveAll app reqs pre).db.users, u.username = name ∧ u.handle = h)
    -- the authenticator data and its signature
    (had : EncodedAuthData app.env ad raw) (hrp : RpHashOk app.env raw "localhost")
    (hup : FlagSet raw 0) (hsig : SignedBy app.env k sig (raw ++ app.env.sha256 cdj))
    (hcounter : ∀ p, p ++ [i] <+: sched → p.count i = 2 →
      ∀ r ∈ (serveAll app reqs p).db.credentials, r.id = c.rawId →
        ∀ m, r.count = some m → m < ad.signCount) :
    answer app reqs sched i = some success := by
  obtain ⟨u, hu, rfl, hrow⟩ := issuedAt_row hi
  have kpre := C63_tables app reqs pre
  obtain ⟨v, key, hv1, hv2, hkey, hcred⟩ := registeredAt_row hr
  obtain rfl : v = u := pairwise_unique (f := User.username) kpre.names hv1 hu hv2
  have hd : ∃ d, CoseKeyOf d k := by
    obtain ⟨_, _, _, _, _, _, _, _, _, -, -, -, -, -, e1, e2, e3⟩ := hr
    exact attested_key_dict e1 e2 e3
  have hparse := C27_stored_key codec (hd.imp fun _ => parseCoseKeyDict_ok_iff.mpr) hkey
  -- the checks pass for every counter that may be stored
  have checks : ∀ count : Option Int, (∀ m, count = some m → m < ad.signCount) →
      ∃ allowed, assertionPre app.env (assertionArgs c ⟨n, ch, t, v.id⟩ v) = .ok allowed ∧
        assertionChecks app.env (assertionArgs c ⟨n, ch, t, v.id⟩ v) allowed
          ⟨asStored k, count, v.entity, none⟩ = .ok ⟨c, ad, v.entity, rp⟩ := by
    intro count hlt
    obtain ⟨allowed, cd, s1, r, h1, h2, h3, h4⟩ := handleAssertion_ok_iff.mp
      (C52_honest_authentication codec json
        (reg := (⟨fun _ s => (.ok none, s), fun r _ => (.ok none, some r),
          fun _ s => (.ok (some ⟨asStored k, count, v.entity, none⟩), s)⟩ :
          Registrar (Option AssertionRecord)))
        (a := assertionArgs c ⟨n, ch, t, v.id⟩ v) (s := none) (s1 := none)
        (cd := ⟨asStored k, count, v.entity, none⟩) (user := v.entity) (rp := rp) rfl
        (fun l hl => nomatch hl) hresp hcdj hch
        (.given _ _ rfl (fun h hh => by
          obtain ⟨w, hw1, hw2, hw3⟩ := hhandle h hh
          obtain rfl : w = v := pairwise_unique (f := User.username) kpre.names hw1 hu hw2
          exact hw3.symm)) (.arg _) had hrp hup
        (fun h => nomatch h) (fun l hl => nomatch hl) (signedBy_asStored.mpr hsig)
        (fun m hm _ => ⟨ad.signCount, (authDataOf_head (encodedAuthData_of codec had)).2.2.2, hlt m hm⟩)
        (expected_app _)
        (originAllowed_of (expected_app _) (List.mem_singleton.mpr rfl)) .none rfl)
    obtain ⟨h2, -⟩ := Prod.mk.inj h2
    obtain rfl := Option.some.inj (Except.ok.inj h2)
    obtain rfl := Option.some.inj (Prod.mk.inj h4).2
    exact ⟨allowed, h1, h3⟩
  refine live_success (n := 6) (G := fun m db => m = 2 → ∀ r ∈ db.credentials, r.id = c.rawId →
    ∀ m, r.count = some m → m < ad.signCount) hpre hnot ?_ ?_ hcount
  · rw [hreq]
    refine live_read (ch := ⟨n, ch, t, v.id⟩) (c := c) (u := v) hf (by rw [hresp]; rfl) hrow hu ht ?_
    intro db1 g1 k1
    obtain ⟨allowed, h1, -⟩ := checks none (by simp)
    simp only [assertionProg, h1, handlerTask]
    intro db2 g2 k2 hG
    obtain ⟨row, hr1, hr2, hr3, hr4⟩ := (g1.trans g2).row hcred
    have hc : db2.credential (assertionArgs c ⟨n, ch, t, v.id⟩ v).credential.rawId = some row :=
      hr2 ▸ k2.find_credential hr1
    obtain ⟨allowed', h1', h2⟩ := checks row.count (fun m hm => hG rfl row hr1 hr2 m hm)
    rw [h1] at h1'
    cases h1'
    rw [← hr3] at hparse
    simp only [Task.step, hc, hparse]
    intro db3 g3 k3 _
    have hu3 : db3.userOfId row.userId = some v := by
      rw [hr4]
      exact k3.find_id (g3.user (g2.user (g1.user hu)))
    simp only [Task.step, hu3, assertionProgFrom, checkRead, h2, handlerTask]
    intro db4 g4 k4 _
    obtain ⟨row', hr1', hr2', -⟩ := (g1.trans (g2.trans (g3.trans g4))).row hcred
    have hc' : db4.credential c.rawId = some row' := hr2' ▸ k4.find_credential hr1'
    simp only [Task.step, hc']
    intro db5 g5 k5 _
    exact ⟨_, rfl, rfl⟩
  · exact fun p _ hp2 h3 => hcounter p hp2 h3

/-- C63, honest authentication: whatever the others do, the application accepts the
honest response to a challenge it issued to the user at most 60000 ms ago, with a
credential that the user registered, when the counter exceeds those of the
authentications that have succeeded by the moment of its third statement, which
reads the counter. -/
theorem C63_authentication (codec : CodecLaws app.env) (json : JsonLaw app.env)
    {pre : List ι} {i j j' : ι} {f : Form} {now t : Int} {n : Nat} {ch : Bytes}
    {name chText : String} {c : Credential} {cdj raw sig : Bytes} {handle : Option Bytes}
    {ad : AuthData} {k : CPK}
    -- the challenge was issued and the credential registered, then the response sent
    (hpre : pre <+: sched) (hi : IssuedAt app reqs pre j n ch t name) (ht : now - t ≤ 60000)
    (hr : RegisteredAt app reqs pre j' c.rawId name k)
    (hreq : reqs i = .authenticationResponse f now) (hnot : i ∉ pre) (hcount : 6 ≤ sched.count i)
    -- the form and the response of the browser
    (hf : Submits app f n c name) (hresp : c.response = .assertion cdj raw sig handle)
    (hcdj : ClientDataText "webauthn.get" chText "http://localhost:5000" none cdj)
    (hch : Base64UrlText chText ch)
    (hhandle : ∀ h, handle = some h →
      ∃ u ∈ (serveAll app reqs pre).db.users, u.username = name ∧ u.handle = h)
    -- the authenticator data and its signature
    (had : EncodedAuthData app.env ad raw) (hrp : RpHashOk app.env raw "localhost")
    (hup : FlagSet raw 0) (hsig : SignedBy app.env k sig (raw ++ app.env.sha256 cdj))
    (hcounter : ∀ p j m, p ++ [i] <+: sched → p.count i = 2 → j ≠ i →
      AuthenticatedAt app reqs p j c.rawId m → m < ad.signCount) :
    answer app reqs sched i = some success := by
  by_contra hno
  refine hno (authentication_live codec json hpre hi ht hr hreq hnot hcount hf hresp hcdj hch hhandle had
    hrp hup hsig fun p hp2 h3 r hr he m hm => ?_)
  obtain ⟨pre', j', h4, h5⟩ := (server_inv app reqs p).counts r hr m hm
  rw [he] at h5
  have hp3 : p <+: sched := (List.prefix_append _ _).trans hp2
  by_cases hj : j' = i
  · subst hj
    obtain ⟨_, _, _, _, _, _, -, h6, -⟩ := h5
    exact absurd (answer_mono (h4.trans hp3) h6) hno
  · exact hcounter p j' m hp2 h3 hj (authenticatedAt_mono h4 h5)

/-- The commit of a challenge whose bytes are new. -/
theorem live_challenge {Q : Reply → Prop} {G : Nat → Db → Prop} {m : Nat} {ch : Bytes} {t : Int}
    {userId : Nat} {k : Py Nat → Task} {db : Db} (hk : ∀ n, ∃ r, k (.ok n) = .done r ∧ Q r)
    (hG : ∀ db, G m db → ∀ c ∈ db.challenges, c.request ≠ ch) :
    Live Q G m 1 (.addChallenge ch t userId k) db := by
  intro db' _ _ hg
  rcases addChallenge_cases db' ch t userId with e | ⟨-, e⟩
  · exfalso
    unfold Db.addChallenge at e
    rw [if_neg] at e
    · cases e
    · rw [List.any_eq_true]
      rintro ⟨c, hc, he⟩
      exact hG _ hg c hc (by simpa using he)
  · simp only [Task.step, e]
    exact hk _

/-- The bytes of a challenge that nobody else was given are new, until the request has
been answered. -/
theorem challenge_new {i : ι} {ch : Bytes} {t : Int} {name : String}
    (hi : (∃ h, reqs i = .registrationRequest (some name) h ch t) ∨
      reqs i = .authenticationRequest (some name) ch t)
    (hfresh : ∀ j n' t' name', j ≠ i → ¬ IssuedAt app reqs sched j n' ch t' name')
    (hno : ¬ ∃ n, IssuedAt app reqs sched i n ch t name) {p : List ι} (hp : p <+: sched) :
    ∀ c ∈ (serveAll app reqs p).db.challenges, c.request ≠ ch := by
  intro c hc he
  obtain ⟨pre, j, u, h1, -, -, h2⟩ := (server_inv app reqs p).challenges c hc
  rw [he] at h2
  have h2 := issuedAt_mono (h1.trans hp) h2
  by_cases hj : j = i
  · subst hj
    exact hno ⟨c.id, h2.1, hi⟩
  · exact hfresh j _ _ _ hj h2

/-- C63: a request for a registration by a known user is answered with a challenge,
whatever the others do, when nobody else is given the same random bytes. -/
theorem C63_registration_request_known {pre : List ι} {i j : ι} {name : String} {hd ch ch' : Bytes}
    {n' : Nat} {t t' : Int} (hpre : pre <+: sched) (hknown : IssuedAt app reqs pre j n' ch' t' name)
    (hreq : reqs i = .registrationRequest (some name) hd ch t) (hnot : i ∉ pre)
    (hcount : 2 ≤ sched.count i)
    (hfresh : ∀ j n' t' name', j ≠ i → ¬ IssuedAt app reqs sched j n' ch t' name') :
    ∃ n, IssuedAt app reqs sched i n ch t name := by
  by_contra hno
  obtain ⟨u, hu, rfl, -⟩ := issuedAt_row hknown
  obtain ⟨r, hr, n, key, v, rfl⟩ := live_answered (app := app) (reqs := reqs) (n := 2)
    (Q := fun r => ∃ n, Tells r n)
    (G := fun _ db => ∀ c ∈ db.challenges, c.request ≠ ch) hpre hnot (by
      rw [hreq]
      intro db1 g1 k1 _
      have := k1.find_name (g1.user hu)
      simp only [task, registrationRequestTask, Task.step, this]
      refine live_challenge (fun n => ?_) fun _ h => h
      obtain ⟨v, hv, -⟩ := creation_reply n
        { name := u.username, id := u.handle, displayName := u.username } ch
      exact ⟨_, rfl, n, _, v, hv⟩)
    (fun p _ hp => challenge_new (Or.inl ⟨hd, hreq⟩) hfresh hno ((List.prefix_append _ _).trans hp))
    hcount
  exact hno ⟨n, ⟨key, v, hr⟩, Or.inl ⟨hd, hreq⟩⟩

/-- C63: so is a request for an authentication. -/
theorem C63_authentication_request {pre : List ι} {i j : ι} {name : String} {ch ch' : Bytes}
    {n' : Nat} {t t' : Int} (hpre : pre <+: sched) (hknown : IssuedAt app reqs pre j n' ch' t' name)
    (hreq : reqs i = .authenticationRequest (some name) ch t) (hnot : i ∉ pre)
    (hcount : 3 ≤ sched.count i)
    (hfresh : ∀ j n' t' name', j ≠ i → ¬ IssuedAt app reqs sched j n' ch t' name') :
    ∃ n, IssuedAt app reqs sched i n ch t name := by
  by_contra hno
  obtain ⟨u, hu, rfl, -⟩ := issuedAt_row hknown
  obtain ⟨r, hr, n, key, v, rfl⟩ := live_answered (app := app) (reqs := reqs) (n := 3)
    (Q := fun r => ∃ n, Tells r n)
    (G := fun _ db => ∀ c ∈ db.challenges, c.request ≠ ch) hpre hnot (by
      rw [hreq]
      intro db1 g1 k1 _
      have := k1.find_name (g1.user hu)
      simp only [task, authenticationRequestTask, Task.step, this]
      intro db2 g2 k2 _
      refine live_challenge (fun n => ?_) fun _ h => h
      obtain ⟨v, hv, -⟩ := request_reply n (db2.credentials.filter fun c => c.userId == u.id) ch
      exact ⟨_, rfl, n, _, v, hv⟩)
    (fun p _ hp => challenge_new (Or.inr hreq) hfresh hno ((List.prefix_append _ _).trans hp))
    hcount
  exact hno ⟨n, ⟨key, v, hr⟩, Or.inr hreq⟩

/-- C63: a request for a registration by a new user is answered with a challenge,
when moreover nobody else asks for a registration under the same name or is given the
same random user handle. -/
theorem C63_registration_request_new_partial {i : ι} {name : String} {hd ch : Bytes} {t : Int}
    (hreq : reqs i = .registrationRequest (some name) hd ch t) (hcount : 3 ≤ sched.count i)
    (hname : ∀ j name' hd' ch' t', j ∈ sched → j ≠ i →
      reqs j = .registrationRequest (some name') hd' ch' t' → name' ≠ name ∧ hd' ≠ hd)
    (hfresh : ∀ j n' t' name', j ≠ i → ¬ IssuedAt app reqs sched j n' ch t' name') :
    ∃ n, IssuedAt app reqs sched i n ch t name := by
  by_contra hno
  obtain ⟨r, hr, n, key, v, rfl⟩ := live_answered (app := app) (reqs := reqs) (n := 3) (pre := [])
    (Q := fun r => ∃ n, Tells r n)
    (G := fun m db => (∀ c ∈ db.challenges, c.request ≠ ch) ∧
      (m < 2 → ∀ u ∈ db.users, u.username ≠ name ∧ u.handle ≠ hd)) (List.nil_prefix)
    (List.not_mem_nil) (by
      rw [hreq]
      intro db1 g1 k1 h1
      have : db1.userNamed name = none := by
        rw [Db.userNamed, List.find?_eq_none]
        intro u hu he
        exact (h1.2 (by omega) u hu).1 (by simpa using he)
      simp only [task, registrationRequestTask, Task.step, this]
      intro db2 g2 k2 h2
      rcases addUser_cases db2 name hd with e | ⟨-, e⟩
      · exfalso
        unfold Db.addUser at e
        rw [if_neg] at e
        · cases e
        · rw [List.any_eq_true]
          rintro ⟨u, hu, he⟩
          have := h2.2 (by omega) u hu
          simp only [Bool.or_eq_true, beq_iff_eq] at he
          exact he.elim this.1 this.2
      · simp only [Task.step, e]
        refine live_challenge (fun n => ?_) fun _ h => h.1
        obtain ⟨v, hv, -⟩ := creation_reply n { name := name, id := hd, displayName := name } ch
        exact ⟨_, rfl, n, _, v, hv⟩)
    (fun p _ hp => ⟨challenge_new (Or.inl ⟨hd, hreq⟩) hfresh hno ((List.prefix_append _ _).trans hp),
      fun hm u hu => by
        obtain ⟨j, ch', t', h1, h2⟩ := users_origin app reqs p hu
        have hj : j ≠ i := by
          rintro rfl
          omega
        have hmem : j ∈ p := List.count_pos_iff.mp (by omega)
        exact hname j _ _ _ _ (hp.subset (List.mem_append_left _ hmem)) hj h1⟩)
    hcount
  exact hno ⟨n, ⟨key, v, hr⟩, Or.inl ⟨hd, hreq⟩⟩

end WebAuthn.Flask
