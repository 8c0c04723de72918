import Verif.Model.AutoKeys
import Verif.Props.AccountsServed

/-!
# Accounts are deleted, and keys are not used again (C108)
-/

namespace WebAuthn.Flask

open WebAuthn WebAuthn.Spec WebAuthn.Props

section
variable {app : App} {db : Db}

/-- What the step does to the tables of users and credentials, once the user is there. -/
theorem keyedStep_tables (e : Event) (hu : db.users.Pairwise fun u v => u.handle ≠ v.handle)
    (hnew : ∀ name hd ch t, e = .registrationRequest (some name) hd ch t →
      ∃ u ∈ db.users, u.username = name ∨ u.handle = hd) :
    (keyedStep app e db).2.users = db.users ∧
    ((keyedStep app e db).2.credentials = db.credentials ∨
      (∃ id n, (keyedStep app e db).2.credentials = db.credentials.map (setCount id n)) ∨
      ∃ u ∈ db.users, ∃ id k key, (keyedStep app e db).2.credentials = db.credentials ++ [⟨id, none, key, u.id⟩] ∧
        coseKey app.env k = .ok key ∧
        ∀ rep : List Event → Event → Reply, rep [] e = (keyedStep app e db).1 → RegistersBy rep app [] e id u.username k) := by
  cases e with
  | registrationRequest name hd ch t =>
    cases name with
    | none => exact ⟨rfl, Or.inl rfl⟩
    | some name =>
      rcases insertUser_cases db name hd with ⟨u, -, -, hf⟩ | hf | ⟨hn, -⟩
      · rcases insertChallenge_cases db ch t u.id with ha | ⟨-, ha⟩ <;> simp only [keyedStep, hf, ha] <;>
          exact ⟨trivial, Or.inl trivial⟩
      · simp only [keyedStep, hf]
        exact ⟨trivial, Or.inl trivial⟩
      · obtain ⟨u, h1, h2⟩ := hnew _ _ _ _ rfl
        obtain ⟨h3, h4⟩ := hn u h1
        exact (h2.elim h3 h4).elim
  | authenticationRequest name ch t =>
    cases name with
    | none => exact ⟨rfl, Or.inl rfl⟩
    | some name =>
      cases hn : db.userNamed name with
      | none =>
        simp only [keyedStep, hn]
        exact ⟨trivial, Or.inl trivial⟩
      | some u =>
        rcases insertChallenge_cases db ch t u.id with ha | ⟨-, ha⟩ <;> simp only [keyedStep, hn, ha] <;>
          exact ⟨trivial, Or.inl trivial⟩
  | registrationResponse f t =>
    simp only [keyedStep]
    cases hr : readResponse app true f t db with
    | error r =>
      simp only [registrationResponse, hr]
      exact ⟨trivial, Or.inl trivial⟩
    | ok x =>
      obtain ⟨c, ch, u⟩ := x
      obtain ⟨n, name, h1, -, h3, h4, -⟩ := readResponse_ok_iff.mp hr
      rcases hh : handleAttestation app.env (registrar app.env) (attestationArgs c ch u) db with ⟨r, db'⟩
      rw [registrationResponse_eq hr hh]
      rcases handleAttestation_db app.env (attestationArgs c ch u) db with ⟨h5, -⟩ |
        ⟨o, raw, acd, u', k, kb, ⟨cdj, ob, h5, -, h5', -⟩, h6, h7, h8, h9, h10, h11⟩
      · rw [hh] at h5
        rw [show db' = _ from h5]
        exact ⟨rfl, Or.inl rfl⟩
      · rw [hh] at h11
        obtain ⟨rfl, rfl⟩ := Prod.mk.inj h11
        obtain ⟨hu1, hu2⟩ := userNamed_some h4
        obtain ⟨hv1, hv2⟩ := userOfHandle_some h7
        obtain rfl : u' = u := pairwise_inj hu hv1 hu1 hv2
        refine ⟨rfl, Or.inr (Or.inr ⟨u', hu1, c.rawId, k, kb, rfl, h9, fun rep hrep => ?_⟩)⟩
        exact ⟨f, t, n, c, cdj, ob, o, raw, acd, rfl, hrep, hu2 ▸ h1, rfl, h5, h5', h6, h8⟩
  | authenticationResponse f t =>
    simp only [keyedStep]
    cases hr : readResponse app false f t db with
    | error r =>
      simp only [authenticationResponse, hr]
      exact ⟨trivial, Or.inl trivial⟩
    | ok x =>
      obtain ⟨c, ch, u⟩ := x
      rcases hh : handleAssertion app.env (registrar app.env) (assertionArgs c ch u) db with ⟨r, db'⟩
      rw [authenticationResponse_eq hr hh]
      rcases handleAssertion_db app.env (assertionArgs c ch u) db with ⟨h5, -⟩ |
        ⟨cd, user, rp, ad, -, -, h11⟩
      · rw [hh] at h5
        rw [show db' = _ from h5]
        exact ⟨rfl, Or.inl rfl⟩
      · rw [hh] at h11
        obtain ⟨rfl, rfl⟩ := Prod.mk.inj h11
        exact ⟨rfl, Or.inr (Or.inl ⟨_, _, rfl⟩)⟩

end

/-- The tables, with keys below `n`. -/
structure AutoInv (rep : List AccountOp → Event → Reply) (app : App) (ops : List AccountOp) (db : Db) (n : Nat) : Prop where
  userIds : db.users.Pairwise fun u v => u.id ≠ v.id
  handles : db.users.Pairwise fun u v => u.handle ≠ v.handle
  usersBelow : ∀ u ∈ db.users, u.id < n
  rowsBelow : ∀ c ∈ db.credentials, c.userId < n
  credentials : ∀ c ∈ db.credentials, ∀ u ∈ db.users, u.id = c.userId →
    ∃ i k, JoinedAt rep app ops i c.id u.username k ∧ coseKey app.env k = .ok c.key ∧ ¬ DeletedAfter ops i u.username

section
variable {rep : List AccountOp → Event → Reply} {app : App} {ops : List AccountOp} {db : Db} {n : Nat}

theorem AutoInv.admit (h : AutoInv rep app ops db n) (e : Event) :
    AutoInv rep app ops (admit e (db, n)).1 (admit e (db, n)).2 := by
  unfold Flask.admit
  split
  · split
    · exact h
    · rename_i name hd _ _ hn
      simp only [List.any_eq_true, Bool.or_eq_true, beq_iff_eq, not_exists, not_and, not_or] at hn
      refine ⟨pairwise_snoc h.userIds fun u hu => Nat.ne_of_lt (h.usersBelow u hu),
        pairwise_snoc h.handles fun u hu => (hn u hu).2, ?_, fun c hc => Nat.lt_succ_of_lt (h.rowsBelow c hc), ?_⟩
      · intro u hu
        rcases List.mem_append.mp hu with hu | hu
        · exact Nat.lt_succ_of_lt (h.usersBelow u hu)
        · rw [List.mem_singleton.mp hu]
          exact Nat.lt_succ_self _
      · intro c hc u hu he
        rcases List.mem_append.mp hu with hu | hu
        · exact h.credentials c hc u hu he
        · rw [List.mem_singleton] at hu
          subst hu
          exact absurd he.symm (Nat.ne_of_lt (h.rowsBelow c hc))
  · exact h

theorem admit_there {e : Event} {s : Db × Nat} {name : String} {hd ch : Bytes} {t : Int}
    (he : e = .registrationRequest (some name) hd ch t) :
    ∃ u ∈ (admit e s).1.users, u.username = name ∨ u.handle = hd := by
  subst he
  unfold admit
  dsimp only
  split
  · rename_i h
    simpa [List.any_eq_true] using h
  · exact ⟨_, List.mem_append_right _ (List.mem_singleton_self _), Or.inl rfl⟩

theorem not_deleted_request {i : Nat} {name : String} {e : Event} (h : ¬ DeletedAfter ops i name) :
    ¬ DeletedAfter (ops ++ [.request e]) i name := by
  intro hd
  rcases deletedAfter_snoc hd with hd | hd
  · exact h hd
  · cases hd

theorem AutoInv.step (h : AutoInv rep app ops db n) {e : Event}
    (hnew : ∀ name hd ch t, e = .registrationRequest (some name) hd ch t →
      ∃ u ∈ db.users, u.username = name ∨ u.handle = hd)
    (hrep : rep ops e = (keyedStep app e db).1) :
    AutoInv rep app (ops ++ [.request e]) (keyedStep app e db).2 n := by
  obtain ⟨h1, h2⟩ := keyedStep_tables (app := app) e h.handles hnew
  have keep : ∀ c ∈ db.credentials, ∀ u ∈ db.users, u.id = c.userId → ∃ i k,
      JoinedAt rep app (ops ++ [.request e]) i c.id u.username k ∧ coseKey app.env k = .ok c.key ∧
      ¬ DeletedAfter (ops ++ [.request e]) i u.username := by
    intro c hc u hu he
    obtain ⟨i, k, g1, g2, g3⟩ := h.credentials c hc u hu he
    exact ⟨i, k, joinedAt_snoc _ g1, g2, not_deleted_request g3⟩
  refine ⟨h1 ▸ h.userIds, h1 ▸ h.handles, h1 ▸ h.usersBelow, ?_, ?_⟩
  · rcases h2 with h2 | ⟨id, m, h2⟩ | ⟨u, hu, id, k, key, h2, -⟩
    · exact h2 ▸ h.rowsBelow
    · rw [h2]
      intro c hc
      obtain ⟨c', hc', rfl⟩ := List.mem_map.mp hc
      rw [(setCount_keeps id m c').2.2]
      exact h.rowsBelow c' hc'
    · rw [h2]
      intro c hc
      rcases List.mem_append.mp hc with hc | hc
      · exact h.rowsBelow c hc
      · rw [List.mem_singleton.mp hc]
        exact h.usersBelow u hu
  · rw [h1]
    rcases h2 with h2 | ⟨id, m, h2⟩ | ⟨u, hu, id, k, key, h2, h3, h4⟩
    · rw [h2]
      exact keep
    · rw [h2]
      intro c hc
      obtain ⟨c', hc', rfl⟩ := List.mem_map.mp hc
      obtain ⟨e1, e2, e3⟩ := setCount_keeps id m c'
      rw [e1, e2, e3]
      exact keep c' hc'
    · rw [h2]
      intro c hc v hv he
      rcases List.mem_append.mp hc with hc | hc
      · exact keep c hc v hv he
      · rw [List.mem_singleton] at hc
        subst hc
        obtain rfl := pairwise_inj h.userIds hv hu he
        refine ⟨ops.length, k, ⟨e, at_last _ _, ?_⟩, h3, not_deleted_last _ _ _⟩
        rw [take_last]
        exact h4 (fun _ => rep ops) hrep

theorem AutoInv.dropped (h : AutoInv rep app ops db n) {drop : String → Db → Db} (hs : Shrinks drop) (hd : DropsUser drop)
    (name : String) : AutoInv rep app (ops ++ [.delete name]) (drop name db) n where
  userIds := h.userIds.sublist (hs.users name db)
  handles := h.handles.sublist (hs.users name db)
  usersBelow := fun u hu => h.usersBelow u ((hs.users name db).subset hu)
  rowsBelow := fun c hc => h.rowsBelow c ((hs.credentials name db).subset hc)
  credentials := by
    intro c hc u hu he
    obtain ⟨hu, hn⟩ := hd name db u hu
    obtain ⟨i, k, g1, g2, g3⟩ := h.credentials c ((hs.credentials name db).subset hc) u hu he
    refine ⟨i, k, joinedAt_snoc _ g1, g2, fun h => ?_⟩
    rcases deletedAfter_snoc h with h | h
    · exact g3 h
    · cases h
      exact hn rfl

end

section
variable {app : App} {drop : String → Db → Db}

theorem autoRun_snoc (ops : List AccountOp) (op : AccountOp) : autoRun app drop (ops ++ [op]) = match op with
    | .request e => ((keyedStep app e (admit e (autoRun app drop ops)).1).2, (admit e (autoRun app drop ops)).2)
    | .delete name => (drop name (autoRun app drop ops).1, (autoRun app drop ops).2) := by
  simp only [autoRun, List.foldl_append, List.foldl_cons, List.foldl_nil]
  cases op <;> rfl

theorem autoInv_run (hs : Shrinks drop) (hd : DropsUser drop) (ops : List AccountOp) :
    AutoInv (autoReply app drop) app ops (autoRun app drop ops).1 (autoRun app drop ops).2 := by
  induction ops using List.reverseRecOn with
  | nil => exact ⟨.nil, .nil, by simp [autoRun], by simp [autoRun], by simp [autoRun]⟩
  | append_singleton ops op ih =>
    rw [autoRun_snoc]
    cases op with
    | request e => exact (ih.admit e).step (fun name hd ch t he => admit_there he) rfl
    | delete name => exact ih.dropped hs hd name

theorem auto_registered (codec : CodecLaws app.env) (hs : Shrinks drop) (hd : DropsUser drop) :
    OwnCredentials (autoReply app drop) app := by
  intro ops f now n c name h hf
  have inv := autoInv_run (app := app) hs hd ops
  have h : (authenticationResponse app f now (autoRun app drop ops).1).1 = success := h
  obtain ⟨n', c', name', ch, u, row, key, user, rp, ad, h1, -, -, -, h5, h6, h7, h8, h9, h10,
    ⟨cdj, raw, sig, handle, h11, -, -, -, -, h12, -⟩⟩ := login_tables inv.handles h
  obtain ⟨rfl, rfl, rfl⟩ := submits_unique hf h1
  obtain ⟨i, k, g1, g2, g3⟩ := inv.credentials row h7 u h5 h9.symm
  rw [h6] at g1 g3
  exact ⟨i, k, cdj, raw, sig, handle, h8 ▸ g1, g3, h11, joined_signed codec g1 g2 h10 h12⟩

/-- C108: with keys that are not used again it suffices to delete the row of the user. -/
theorem C108_repaired (app : App) (codec : CodecLaws app.env) : OwnCredentials (autoReply app dropUser) app :=
  auto_registered codec shrinks_user dropsUser_user

/-! ### Where nothing is deleted -/

theorem admit_step {evs : List Event} (e : Event) :
    keyedStep app e (admit e (run app evs, (run app evs).users.length + 1)).1 = step app e (run app evs) ∧
    (admit e (run app evs, (run app evs).users.length + 1)).2 = (step app e (run app evs)).2.users.length + 1 := by
  have inv := inv_run app evs
  have uk := users_key inv
  have ck := challenges_key inv
  have same := keyedStep_same (app := app) uk ck
  have old : admit e (run app evs, (run app evs).users.length + 1) = (run app evs, (run app evs).users.length + 1) →
      (∀ name hd ch t, e = .registrationRequest (some name) hd ch t →
        ∃ u ∈ (run app evs).users, u.username = name ∨ u.handle = hd) →
      keyedStep app e (admit e (run app evs, (run app evs).users.length + 1)).1 = step app e (run app evs) ∧
      (admit e (run app evs, (run app evs).users.length + 1)).2 = (step app e (run app evs)).2.users.length + 1 := by
    intro ha hn
    rw [ha]
    refine ⟨same e, ?_⟩
    rw [← same e, (keyedStep_tables e inv.handles hn).1]
  cases e with
  | registrationRequest name hd ch t =>
    cases name with
    | none => exact old rfl (by rintro _ _ _ _ ⟨⟩)
    | some name =>
      by_cases hn : ((run app evs).users.any fun u => u.username == name || u.handle == hd) = true
      · refine old (by simp only [admit, hn, if_true]) ?_
        rintro _ _ _ _ ⟨⟩
        simpa [List.any_eq_true] using hn
      · have hadm : admit (.registrationRequest (some name) hd ch t) (run app evs, (run app evs).users.length + 1) =
            ({ run app evs with users := (run app evs).users ++ [⟨(run app evs).users.length + 1, name, hd⟩] },
              (run app evs).users.length + 2) := by simp only [admit, hn]; rfl
        have hno : (run app evs).userNamed name = none := by
          refine List.find?_eq_none.mpr fun u hu hu' => hn (List.any_eq_true.mpr ⟨u, hu, ?_⟩)
          rw [hu', Bool.true_or]
        have hf : findOrAddUser (run app evs) name hd = (.ok ⟨(run app evs).users.length + 1, name, hd⟩,
            { run app evs with users := (run app evs).users ++ [⟨(run app evs).users.length + 1, name, hd⟩] }) := by
          simp only [findOrAddUser, hno, Db.addUser, hn]
          rfl
        have hi : findOrInsertUser { run app evs with
              users := (run app evs).users ++ [⟨(run app evs).users.length + 1, name, hd⟩] } name hd =
            (.ok ⟨(run app evs).users.length + 1, name, hd⟩, { run app evs with
              users := (run app evs).users ++ [⟨(run app evs).users.length + 1, name, hd⟩] }) := by
          have : Db.userNamed { run app evs with
              users := (run app evs).users ++ [⟨(run app evs).users.length + 1, name, hd⟩] } name =
              some ⟨(run app evs).users.length + 1, name, hd⟩ := by
            show List.find? _ _ = _
            rw [List.find?_append, show (run app evs).users.find? (fun u => u.username == name) = none from hno]
            simp
          simp only [findOrInsertUser, this]
        rw [hadm]
        simp only [keyedStep, step, registrationRequest, hf, hi, Db.insertChallenge, Db.addChallenge, ck]
        by_cases hc : ((run app evs).challenges.any fun c => c.request == ch) = true
        · simp only [hc, if_true]
          exact ⟨trivial, by simp⟩
        · simp only [hc, Bool.false_eq_true, if_false]
          exact ⟨trivial, by simp⟩
  | authenticationRequest name ch t => exact old rfl (by rintro _ _ _ _ ⟨⟩)
  | registrationResponse f t => exact old rfl (by rintro _ _ _ _ ⟨⟩)
  | authenticationResponse f t => exact old rfl (by rintro _ _ _ _ ⟨⟩)

theorem autoRun_same (app : App) (drop : String → Db → Db) (evs : List Event) :
    autoRun app drop (evs.map .request) = (run app evs, (run app evs).users.length + 1) := by
  induction evs using List.reverseRecOn with
  | nil => rfl
  | append_singleton evs e ih =>
    rw [List.map_append, List.map_singleton, autoRun_snoc, run_snoc]
    dsimp only
    rw [ih, (admit_step e).1, (admit_step e).2]

/-- C108: … and where nothing is deleted nothing changes. -/
theorem C108_repaired_same (app : App) (drop : String → Db → Db) (evs : List Event) (e : Event) :
    autoReply app drop (evs.map .request) e = reply app evs e := by
  rw [autoReply, autoRun_same, (admit_step e).1]
  rfl

end

end WebAuthn.Flask
