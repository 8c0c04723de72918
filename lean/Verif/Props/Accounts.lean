import Verif.Spec.Accounts
import Verif.Props.Flask

/-!
# Accounts are deleted (C108)
-/

namespace WebAuthn.Flask

open WebAuthn WebAuthn.Spec WebAuthn.Props

/-! ## Keys -/

theorem nextKey_gt {l : List Nat} {n : Nat} (h : n ∈ l) : n < nextKey l := by
  unfold nextKey
  induction l with
  | nil => cases h
  | cons a l ih =>
    rw [List.foldr_cons]
    rcases List.mem_cons.mp h with rfl | h
    · omega
    · have := ih h
      omega

theorem nextKey_range {l : List Nat} (h : ∀ i n : Nat, l[i]? = some n → n = i + 1) : nextKey l = l.length + 1 := by
  have : ∀ l : List Nat, (∀ i n : Nat, l[i]? = some n → n = i + 1) → l.foldr max 0 = l.length := by
    intro l
    induction l using List.reverseRecOn with
    | nil => intro _; rfl
    | append_singleton l a ih =>
      intro h
      have ha : a = l.length + 1 := h l.length a (by simp)
      have hl := ih fun i n hi => h i n (by
        rw [List.getElem?_append_left (List.getElem?_eq_some_iff.mp hi).1]
        exact hi)
      have hf : ∀ (l : List Nat) (m : Nat), l.foldr max m = max (l.foldr max 0) m := by
        intro l m
        induction l with
        | nil => simp
        | cons b l ih => simp only [List.foldr_cons, ih]; omega
      rw [List.foldr_append, List.foldr_cons, List.foldr_nil, hf, hl, ha]
      simp
  rw [nextKey, this l h]

section
variable {app : App} {db : Db}

theorem insertUser_cases (db : Db) (name : String) (h : Bytes) :
    (∃ u ∈ db.users, u.username = name ∧ findOrInsertUser db name h = (.ok u, db)) ∨
    findOrInsertUser db name h = (.error integrityError, db) ∨
    (∀ u ∈ db.users, u.username ≠ name ∧ u.handle ≠ h) ∧
    findOrInsertUser db name h = (.ok ⟨nextKey (db.users.map User.id), name, h⟩,
      { db with users := db.users ++ [⟨nextKey (db.users.map User.id), name, h⟩] }) := by
  cases hu : db.userNamed name with
  | some u =>
    obtain ⟨h1, h2⟩ := userNamed_some hu
    exact Or.inl ⟨u, h1, h2, by simp only [findOrInsertUser, hu]⟩
  | none =>
    right
    simp only [findOrInsertUser, hu, Db.insertUser]
    split
    · exact Or.inl rfl
    · rename_i hn
      refine Or.inr ⟨fun u hu => ?_, rfl⟩
      simp only [List.any_eq_true, Bool.or_eq_true, beq_iff_eq, not_exists, not_and, not_or] at hn
      exact hn u hu

theorem insertChallenge_cases (db : Db) (ch : Bytes) (t : Int) (n : Nat) :
    db.insertChallenge ch t n = (.error integrityError, db) ∨
    (∀ c ∈ db.challenges, c.request ≠ ch) ∧
    db.insertChallenge ch t n = (.ok (nextKey (db.challenges.map Challenge.id)),
      { db with challenges := db.challenges ++ [⟨nextKey (db.challenges.map Challenge.id), ch, t, n⟩] }) := by
  unfold Db.insertChallenge
  split
  · exact Or.inl rfl
  · rename_i hn
    refine Or.inr ⟨fun u hu => ?_, rfl⟩
    simp only [List.any_eq_true, beq_iff_eq, not_exists, not_and] at hn
    exact hn u hu

/-! ## Where nothing is deleted -/

theorem users_key {evs : List Event} (h : Inv app evs db) : nextKey (db.users.map User.id) = db.users.length + 1 := by
  rw [nextKey_range, List.length_map]
  intro i n hi
  rw [List.getElem?_map, Option.map_eq_some_iff] at hi
  obtain ⟨u, hu, rfl⟩ := hi
  exact h.userIds i u hu

theorem challenges_key {evs : List Event} (h : Inv app evs db) :
    nextKey (db.challenges.map Challenge.id) = db.challenges.length + 1 := by
  rw [nextKey_range, List.length_map]
  intro i n hi
  rw [List.getElem?_map, Option.map_eq_some_iff] at hi
  obtain ⟨u, hu, rfl⟩ := hi
  exact h.challengeIds i u hu

theorem keyedStep_same (h : nextKey (db.users.map User.id) = db.users.length + 1)
    (h' : nextKey (db.challenges.map Challenge.id) = db.challenges.length + 1) (e : Event) :
    keyedStep app e db = step app e db := by
  have hc : ∀ (db' : Db), db'.challenges = db.challenges → ∀ ch t n,
      db'.insertChallenge ch t n = db'.addChallenge ch t n := by
    intro db' he ch t n
    simp only [Db.insertChallenge, Db.addChallenge, he, h']
  have hu : ∀ name hd, findOrInsertUser db name hd = findOrAddUser db name hd := by
    intro name hd
    simp only [findOrInsertUser, findOrAddUser, Db.insertUser, Db.addUser, h]
    rfl
  cases e with
  | registrationRequest name hd ch t =>
    cases name with
    | none => rfl
    | some name =>
      simp only [keyedStep, step, registrationRequest, hu]
      have : (findOrAddUser db name hd).2.challenges = db.challenges := by
        rcases findOrAddUser_cases db name hd with ⟨u, -, -, hf⟩ | hf | ⟨-, hf⟩ <;> rw [hf]
      rcases hf : findOrAddUser db name hd with ⟨_ | u, db'⟩
      · rfl
      · rw [hf] at this
        dsimp only
        rw [hc db' this]
        rfl
  | authenticationRequest name ch t =>
    cases name with
    | none => rfl
    | some name =>
      simp only [keyedStep, step, authenticationRequest, hc db rfl]
      rfl
  | registrationResponse f t => rfl
  | authenticationResponse f t => rfl

theorem keyedRun_snoc (drop : String → Db → Db) (ops : List AccountOp) (op : AccountOp) :
    keyedRun app drop (ops ++ [op]) = match op with
      | .request e => (keyedStep app e (keyedRun app drop ops)).2
      | .delete name => drop name (keyedRun app drop ops) := by
  simp only [keyedRun, List.foldl_append, List.foldl_cons, List.foldl_nil]
  cases op <;> rfl

theorem keyedRun_same (app : App) (drop : String → Db → Db) (evs : List Event) :
    keyedRun app drop (evs.map .request) = run app evs := by
  induction evs using List.reverseRecOn with
  | nil => rfl
  | append_singleton evs e ih =>
    rw [List.map_append, List.map_singleton, keyedRun_snoc, run_snoc]
    dsimp only
    rw [ih, keyedStep_same (users_key (inv_run app evs)) (challenges_key (inv_run app evs))]

theorem keyedReply_tables {drop : String → Db → Db} {ops : List AccountOp} {evs : List Event}
    (h : keyedRun app drop ops = run app evs) (f : Form) (t : Int) :
    keyedReply app drop ops (.authenticationResponse f t) = reply app evs (.authenticationResponse f t) := by
  rw [keyedReply, h]
  rfl

/-- C108: where nothing is deleted, this is the application. -/
theorem C108_same (app : App) (drop : String → Db → Db) (evs : List Event) (e : Event) :
    keyedReply app drop (evs.map .request) e = reply app evs e := by
  rw [keyedReply, keyedRun_same, keyedStep_same (users_key (inv_run app evs)) (challenges_key (inv_run app evs))]
  rfl

end

/-! ## What is in the tables -/

/-- `own`: rows of credentials and challenges are those of accounts that are there. -/
structure KeyedInv (own : Prop) (rep : List AccountOp → Event → Reply) (app : App) (ops : List AccountOp) (db : Db) :
    Prop where
  userIds : db.users.Pairwise fun u v => u.id ≠ v.id
  names : db.users.Pairwise fun u v => u.username ≠ v.username
  handles : db.users.Pairwise fun u v => u.handle ≠ v.handle
  challenges : ∀ c ∈ db.challenges, ∃ i name, GivenAt rep ops i c.id c.request c.timestamp name
  credentials : ∀ c ∈ db.credentials, ∃ i name k, JoinedAt rep app ops i c.id name k ∧ coseKey app.env k = .ok c.key ∧
    (own → ¬ DeletedAfter ops i name ∧ ∃ u ∈ db.users, u.id = c.userId ∧ u.username = name)

section
variable {own : Prop} {rep : List AccountOp → Event → Reply} {app : App} {ops : List AccountOp} {db : Db}

theorem pairwise_inj {α β : Type} {f : α → β} {l : List α} (h : l.Pairwise fun a b => f a ≠ f b) {a b : α}
    (ha : a ∈ l) (hb : b ∈ l) (he : f a = f b) : a = b := by
  induction l with
  | nil => cases ha
  | cons c l ih =>
    rw [List.pairwise_cons] at h
    rcases List.mem_cons.mp ha with rfl | ha' <;> rcases List.mem_cons.mp hb with rfl | hb'
    · rfl
    · exact absurd he (h.1 _ hb')
    · exact absurd he.symm (h.1 _ ha')
    · exact ih h.2 ha' hb'

theorem joinedAt_snoc {i : Nat} {id : Bytes} {name : String} {k : CPK} (op : AccountOp)
    (h : JoinedAt rep app ops i id name k) : JoinedAt rep app (ops ++ [op]) i id name k := by
  obtain ⟨e, h1, h2⟩ := h
  have hi := (List.getElem?_eq_some_iff.mp h1).1
  exact ⟨e, by rw [List.getElem?_append_left hi, h1], by rw [List.take_append_of_le_length hi.le]; exact h2⟩

theorem givenAt_snoc {i n : Nat} {ch : Bytes} {t : Int} {name : String} (op : AccountOp)
    (h : GivenAt rep ops i n ch t name) : GivenAt rep (ops ++ [op]) i n ch t name := by
  obtain ⟨e, h1, h2⟩ := h
  have hi := (List.getElem?_eq_some_iff.mp h1).1
  exact ⟨e, by rw [List.getElem?_append_left hi, h1], by rw [List.take_append_of_le_length hi.le]; exact h2⟩

theorem deletedAfter_snoc {i : Nat} {name : String} {op : AccountOp} (h : DeletedAfter (ops ++ [op]) i name) :
    DeletedAfter ops i name ∨ op = .delete name := by
  obtain ⟨j, hj, h⟩ := h
  rcases getElem?_snoc h with h | ⟨-, h⟩
  · exact Or.inl ⟨j, hj, h⟩
  · exact Or.inr h.symm

theorem KeyedInv.snoc (h : KeyedInv own rep app ops db) (e : Event) :
    KeyedInv own rep app (ops ++ [.request e]) db where
  userIds := h.userIds
  names := h.names
  handles := h.handles
  challenges := fun c hc =>
    let ⟨i, name, h1⟩ := h.challenges c hc
    ⟨i, name, givenAt_snoc _ h1⟩
  credentials := by
    intro c hc
    obtain ⟨i, name, k, h1, h2, h3⟩ := h.credentials c hc
    refine ⟨i, name, k, joinedAt_snoc _ h1, h2, fun ho => ⟨fun hd => ?_, (h3 ho).2⟩⟩
    rcases deletedAfter_snoc hd with hd | hd
    · exact (h3 ho).1 hd
    · cases hd

theorem KeyedInv.addUser (h : KeyedInv own rep app ops db) {name : String} {hd : Bytes}
    (hf : ∀ u ∈ db.users, u.username ≠ name ∧ u.handle ≠ hd) :
    KeyedInv own rep app ops { db with users := db.users ++ [⟨nextKey (db.users.map User.id), name, hd⟩] } where
  userIds := pairwise_snoc h.userIds fun _ hu => Nat.ne_of_lt (nextKey_gt (List.mem_map_of_mem hu))
  names := pairwise_snoc h.names fun u hu => (hf u hu).1
  handles := pairwise_snoc h.handles fun u hu => (hf u hu).2
  challenges := h.challenges
  credentials := fun c hc =>
    let ⟨i, name, k, h1, h2, h3⟩ := h.credentials c hc
    ⟨i, name, k, h1, h2, fun ho => ⟨(h3 ho).1, let ⟨u, g1, g2⟩ := (h3 ho).2; ⟨u, List.mem_append_left _ g1, g2⟩⟩⟩

theorem KeyedInv.addChallenge (h : KeyedInv own rep app ops db) {i : Nat} {name : String} {c : Challenge}
    (hi : GivenAt rep ops i c.id c.request c.timestamp name) :
    KeyedInv own rep app ops { db with challenges := db.challenges ++ [c] } where
  userIds := h.userIds
  names := h.names
  handles := h.handles
  challenges := by
    intro c' hc
    rcases List.mem_append.mp hc with hc | hc
    · exact h.challenges c' hc
    · rw [List.mem_singleton.mp hc]
      exact ⟨i, name, hi⟩
  credentials := h.credentials

theorem KeyedInv.addCredential (h : KeyedInv own rep app ops db) {u : User} (hu : u ∈ db.users) {i : Nat}
    {id key : Bytes} {k : CPK} (hr : JoinedAt rep app ops i id u.username k) (hk : coseKey app.env k = .ok key)
    (hd : ¬ DeletedAfter ops i u.username) :
    KeyedInv own rep app ops { db with credentials := db.credentials ++ [⟨id, none, key, u.id⟩] } where
  userIds := h.userIds
  names := h.names
  handles := h.handles
  challenges := h.challenges
  credentials := by
    intro c hc
    rcases List.mem_append.mp hc with hc | hc
    · exact h.credentials c hc
    · rw [List.mem_singleton] at hc
      subst hc
      exact ⟨i, _, k, hr, hk, fun _ => ⟨hd, u, hu, rfl, rfl⟩⟩

theorem KeyedInv.setCounts (h : KeyedInv own rep app ops db) (id : Bytes) (n : Int) :
    KeyedInv own rep app ops { db with credentials := db.credentials.map (setCount id n) } where
  userIds := h.userIds
  names := h.names
  handles := h.handles
  challenges := h.challenges
  credentials := by
    intro c hc
    obtain ⟨c', hc', rfl⟩ := List.mem_map.mp hc
    obtain ⟨e1, e2, e3⟩ := setCount_keeps id n c'
    rw [e1, e2, e3]
    exact h.credentials c' hc'

/-- Rows may be deleted. -/
structure Shrinks (drop : String → Db → Db) : Prop where
  users : ∀ name db, (drop name db).users.Sublist db.users
  credentials : ∀ name db, (drop name db).credentials.Sublist db.credentials
  challenges : ∀ name db, (drop name db).challenges.Sublist db.challenges

theorem shrinks_user : Shrinks dropUser :=
  ⟨fun _ _ => List.filter_sublist, fun _ _ => List.Sublist.refl _, fun _ _ => List.Sublist.refl _⟩

theorem shrinks_account : Shrinks dropAccount := by
  refine ⟨fun name db => ?_, fun name db => ?_, fun name db => ?_⟩ <;> unfold dropAccount <;> split
  all_goals first | exact List.Sublist.refl _ | exact List.filter_sublist

theorem KeyedInv.drop (h : KeyedInv own rep app ops db) {drop : String → Db → Db} (hs : Shrinks drop)
    (ho : own → drop = dropAccount) (name : String) :
    KeyedInv own rep app (ops ++ [.delete name]) (drop name db) where
  userIds := h.userIds.sublist (hs.users name db)
  names := h.names.sublist (hs.users name db)
  handles := h.handles.sublist (hs.users name db)
  challenges := fun c hc =>
    let ⟨i, name, h1⟩ := h.challenges c ((hs.challenges name db).subset hc)
    ⟨i, name, givenAt_snoc _ h1⟩
  credentials := by
    intro c hc
    obtain ⟨i, name', k, h1, h2, h3⟩ := h.credentials c ((hs.credentials name db).subset hc)
    refine ⟨i, name', k, joinedAt_snoc _ h1, h2, fun hown => ?_⟩
    obtain ⟨h4, u, h5, h6, h7⟩ := h3 hown
    -- the account of a row that is left is not the one that is deleted
    have hne : name' ≠ name := by
      rintro rfl
      rw [ho hown] at hc
      unfold dropAccount at hc
      cases hn : db.userNamed name' with
      | none =>
        have := List.find?_eq_none.mp hn u h5
        simp [h7] at this
      | some v =>
        simp only [hn] at hc
        obtain ⟨g1, g2⟩ := userNamed_some hn
        obtain rfl := pairwise_inj h.names h5 g1 (h7.trans g2.symm)
        have := (List.mem_filter.mp hc).2
        simp [h6] at this
    refine ⟨fun hd => ?_, u, ?_, h6, h7⟩
    · rcases deletedAfter_snoc hd with hd | hd
      · exact h4 hd
      · cases hd
        exact hne rfl
    · rw [ho hown]
      unfold dropAccount
      split
      · exact h5
      · exact List.mem_filter.mpr ⟨h5, by simp [h7, hne]⟩

end

section
variable {own : Prop} {app : App} {drop : String → Db → Db}

theorem at_last (ops : List AccountOp) (op : AccountOp) : (ops ++ [op])[ops.length]? = some op := by simp

theorem take_last (ops : List AccountOp) (op : AccountOp) : (ops ++ [op]).take ops.length = ops := by simp

theorem not_deleted_last (ops : List AccountOp) (op : AccountOp) (name : String) :
    ¬ DeletedAfter (ops ++ [op]) ops.length name := by
  rintro ⟨j, hj, h⟩
  have := (List.getElem?_eq_some_iff.mp h).1
  simp only [List.length_append, List.length_singleton] at this
  omega

theorem KeyedInv.step {ops : List AccountOp} (h : KeyedInv own (keyedReply app drop) app ops (keyedRun app drop ops))
    (e : Event) : KeyedInv own (keyedReply app drop) app (ops ++ [.request e]) (keyedRun app drop (ops ++ [.request e])) := by
  rw [keyedRun_snoc]
  have h' := h.snoc e
  cases e with
  | registrationRequest name hd ch t =>
    cases name with
    | none => exact h'
    | some name =>
      have key : ∀ (u : User) (db : Db),
          KeyedInv own (keyedReply app drop) app (ops ++ [.request (.registrationRequest (some name) hd ch t)]) db →
          findOrInsertUser (keyedRun app drop ops) name hd = (.ok u, db) →
          KeyedInv own (keyedReply app drop) app (ops ++ [.request (.registrationRequest (some name) hd ch t)])
            (keyedStep app (.registrationRequest (some name) hd ch t) (keyedRun app drop ops)).2 := by
        intro u db hdb hf
        rcases insertChallenge_cases db ch t u.id with ha | ⟨-, ha⟩
        · simp only [keyedStep, hf, ha]
          exact hdb
        · simp only [keyedStep, hf, ha]
          refine hdb.addChallenge (i := ops.length) (name := name) ⟨_, at_last _ _, ?_, Or.inl ⟨hd, rfl⟩⟩
          obtain ⟨v, hv, -⟩ := creation_reply (nextKey (db.challenges.map Challenge.id))
            { name := name, id := u.handle, displayName := name } ch
          refine ⟨"creationOptions", v, ?_⟩
          dsimp only
          rw [take_last, keyedReply]
          simp only [keyedStep, hf, ha]
          exact hv
      dsimp only
      rcases insertUser_cases (keyedRun app drop ops) name hd with ⟨u, hu, hn, hf⟩ | hf | ⟨hfresh, hf⟩
      · exact key u _ h' hf
      · simp only [keyedStep, hf]
        exact h'
      · exact key _ _ (h'.addUser hfresh) hf
  | authenticationRequest name ch t =>
    cases name with
    | none => exact h'
    | some name =>
      dsimp only
      cases hu : (keyedRun app drop ops).userNamed name with
      | none =>
        simp only [keyedStep, hu]
        exact h'
      | some u =>
        rcases insertChallenge_cases (keyedRun app drop ops) ch t u.id with ha | ⟨-, ha⟩
        · simp only [keyedStep, hu, ha]
          exact h'
        · simp only [keyedStep, hu, ha]
          refine h'.addChallenge (i := ops.length) (name := name) ⟨_, at_last _ _, ?_, Or.inr rfl⟩
          obtain ⟨v, hv, -⟩ := request_reply (nextKey ((keyedRun app drop ops).challenges.map Challenge.id))
            ((keyedRun app drop ops).credentials.filter fun c => c.userId == u.id) ch
          refine ⟨"requestOptions", v, ?_⟩
          dsimp only
          rw [take_last, keyedReply]
          simp only [keyedStep, hu, ha]
          exact hv
  | registrationResponse f t =>
    show KeyedInv own _ app _ (registrationResponse app f t (keyedRun app drop ops)).2
    cases hr : readResponse app true f t (keyedRun app drop ops) with
    | error r =>
      simp only [registrationResponse, hr]
      exact h'
    | ok x =>
      obtain ⟨c, ch, u⟩ := x
      obtain ⟨n, name, h1, -, h3, h4, -⟩ := readResponse_ok_iff.mp hr
      rcases hh : handleAttestation app.env (registrar app.env) (attestationArgs c ch u) (keyedRun app drop ops)
        with ⟨r, db'⟩
      rw [registrationResponse_eq hr hh]
      rcases handleAttestation_db app.env (attestationArgs c ch u) (keyedRun app drop ops) with ⟨h5, -⟩ |
        ⟨o, raw, acd, u', k, kb, ⟨cdj, ob, h5, -, h5', -⟩, h6, h7, h8, h9, h10, h11⟩
      · rw [hh] at h5
        rw [show db' = _ from h5]
        exact h'
      · rw [hh] at h11
        obtain ⟨rfl, rfl⟩ := Prod.mk.inj h11
        obtain ⟨hu1, hu2⟩ := userNamed_some h4
        obtain ⟨hv1, hv2⟩ := userOfHandle_some h7
        obtain rfl : u' = u := pairwise_inj h.handles hv1 hu1 hv2
        refine h'.addCredential hu1 (i := ops.length) ⟨_, at_last _ _, ?_⟩ h9 (not_deleted_last _ _ _)
        refine ⟨f, t, n, c, cdj, ob, o, raw, acd, rfl, ?_, hu2 ▸ h1, rfl, h5, h5', h6, h8⟩
        dsimp only
        rw [take_last]
        show (registrationResponse app f t (keyedRun app drop ops)).1 = _
        rw [registrationResponse_eq hr hh]
        rfl
  | authenticationResponse f t =>
    show KeyedInv own _ app _ (authenticationResponse app f t (keyedRun app drop ops)).2
    cases hr : readResponse app false f t (keyedRun app drop ops) with
    | error r =>
      simp only [authenticationResponse, hr]
      exact h'
    | ok x =>
      obtain ⟨c, ch, u⟩ := x
      rcases hh : handleAssertion app.env (registrar app.env) (assertionArgs c ch u) (keyedRun app drop ops)
        with ⟨r, db'⟩
      rw [authenticationResponse_eq hr hh]
      rcases handleAssertion_db app.env (assertionArgs c ch u) (keyedRun app drop ops) with ⟨h5, -⟩ |
        ⟨cd, user, rp, ad, -, hok, h11⟩
      · rw [hh] at h5
        rw [show db' = _ from h5]
        exact h'
      · rw [hh] at h11
        obtain ⟨rfl, rfl⟩ := Prod.mk.inj h11
        exact h'.setCounts _ _

theorem keyedInv_run (hs : Shrinks drop) (ho : own → drop = dropAccount) (ops : List AccountOp) :
    KeyedInv own (keyedReply app drop) app ops (keyedRun app drop ops) := by
  induction ops using List.reverseRecOn with
  | nil => exact ⟨.nil, .nil, .nil, by simp [keyedRun], by simp [keyedRun]⟩
  | append_singleton ops op ih =>
    cases op with
    | request e => exact ih.step e
    | delete name =>
      rw [keyedRun_snoc]
      exact ih.drop hs ho name

/-! ## Logins -/

theorem readResponse_refuses {att : Bool} {f : Form} {now : Int} {db : Db} {r : Reply}
    (h : readResponse app att f now db = .error r) : r ≠ success := by
  rintro rfl
  unfold readResponse at h
  split at h
  · split at h <;> simp [success] at h
  · split at h
    · simp [success] at h
    split at h
    · simp [success] at h
    split at h
    · simp [success] at h
    split at h
    · simp [success] at h
    · cases h

/-- A login, in terms of the tables. -/
theorem login_tables {db : Db} (hu : db.users.Pairwise fun u v => u.handle ≠ v.handle) {f : Form} {now : Int}
    (h : (authenticationResponse app f now db).1 = success) :
    ∃ n c name ch u row key user rp ad, Submits app f n c name ∧ ch ∈ db.challenges ∧ ch.id = n ∧
      now - ch.timestamp ≤ 60000 ∧ u ∈ db.users ∧ u.username = name ∧ row ∈ db.credentials ∧ row.id = c.rawId ∧
      row.userId = u.id ∧ parseCoseKeyBytes app.env row.key = .ok key ∧
      AssertionOk app.env (assertionArgs c ch u) ⟨key, row.count, u.entity, none⟩ user rp ad := by
  cases hr : readResponse app false f now db with
  | error r =>
    simp only [authenticationResponse, hr] at h
    exact absurd h (readResponse_refuses hr)
  | ok x =>
    obtain ⟨c, ch, u⟩ := x
    obtain ⟨n, name, h1, -, h3, h4, h5⟩ := readResponse_ok_iff.mp hr
    rcases hh : handleAssertion app.env (registrar app.env) (assertionArgs c ch u) db with ⟨r, db'⟩
    rw [authenticationResponse_eq hr hh, conclude_success] at h
    obtain ⟨hc1, hc2⟩ := challenge_some h3
    obtain ⟨hu1, hu2⟩ := userNamed_some h4
    rcases handleAssertion_db app.env (assertionArgs c ch u) db with ⟨-, h6⟩ | ⟨cd, user, rp, ad, h6, h7, h8⟩
    · rw [hh] at h6
      exact absurd h h6
    · unfold credentialData at h6
      cases hc : db.credential c.rawId with
      | none =>
        rw [show (assertionArgs c ch u).credential.rawId = c.rawId from rfl, hc] at h6
        cases h6
      | some row =>
        rw [show (assertionArgs c ch u).credential.rawId = c.rawId from rfl, hc] at h6
        simp only [bind_ok_iff] at h6
        obtain ⟨key, hk, h6⟩ := h6
        split at h6
        · cases h6
        rename_i v hv
        simp only [pure_eq_ok, Except.ok.injEq, Option.some.injEq] at h6
        subst h6
        obtain ⟨hv1, hv2⟩ := userOfId_some hv
        obtain ⟨hc3, hc4⟩ := credential_some hc
        have huv : v = u := by
          obtain ⟨_, _, _, _, -, hu', -⟩ := h7
          cases hu' with
          | given _ _ he _ => exact pairwise_inj hu hv1 hu1 he.symm
        subst huv
        exact ⟨n, c, name, ch, v, row, key, user, rp, ad, h1, hc1, (Option.some.inj hc2).symm, h5, hu1, hu2, hc3,
          hc4, hv2.symm, hk, h7⟩

/-- The key in a row is the one that was registered. -/
theorem joined_signed (codec : CodecLaws app.env) {rep : List AccountOp → Event → Reply} {ops : List AccountOp} {i : Nat}
    {id b : Bytes} {name : String} {k key : CPK} (h : JoinedAt rep app ops i id name k) (hb : coseKey app.env k = .ok b)
    (hk : parseCoseKeyBytes app.env b = .ok key) {sig data : Bytes} (hs : SignedBy app.env key sig data) :
    SignedBy app.env k sig data := by
  have hd : ∃ d, CoseKeyOf d k := by
    obtain ⟨_, -, _, _, _, _, _, _, _, _, _, -, -, -, -, -, e1, e2, e3⟩ := h
    exact attested_key_dict e1 e2 e3
  have := C27_stored_key codec (hd.imp fun _ => parseCoseKeyDict_ok_iff.mpr) hb
  rw [hk] at this
  cases this
  exact signedBy_asStored.mp hs

/-- C108: if the rows that refer to a user are deleted with it, a login is with a credential that was
registered under the name since it was deleted last, and signed with its key. -/
theorem C108_account_registered (app : App) (codec : CodecLaws app.env) :
    OwnCredentials (keyedReply app dropAccount) app := by
  intro ops f now n c name h hf
  have inv := keyedInv_run (own := True) (app := app) shrinks_account (fun _ => rfl) ops
  obtain ⟨n', c', name', ch, u, row, key, user, rp, ad, h1, -, -, -, h5, h6, h7, h8, h9, h10,
    ⟨cdj, raw, sig, handle, h11, -, -, -, -, h12, -⟩⟩ := login_tables inv.handles h
  obtain ⟨rfl, rfl, rfl⟩ := submits_unique hf h1
  obtain ⟨i, name', k, g1, g2, g3⟩ := inv.credentials row h7
  obtain ⟨g4, v, g5, g6, g7⟩ := g3 trivial
  obtain rfl := pairwise_inj inv.userIds g5 h5 (g6.trans h9)
  obtain rfl := g7.symm.trans h6
  exact ⟨i, k, cdj, raw, sig, handle, h8 ▸ g1, g4, h11, joined_signed codec g1 g2 h10 h12⟩

/-- C108: so that nobody logs in under a name that was deleted and is not registered again. -/
theorem C108_account_gone (codec : CodecLaws app.env) {ops : List AccountOp} {f : Form} {now : Int} {n : Nat}
    {c : Credential} {name : String} (hf : Submits app f n c name) {j : Nat} (hj : ops[j]? = some (.delete name))
    (hr : ∀ i k, j < i → ¬ JoinedAt (keyedReply app dropAccount) app ops i c.rawId name k) :
    keyedReply app dropAccount ops (.authenticationResponse f now) ≠ success := by
  intro h
  obtain ⟨i, k, _, _, _, _, h1, h2, -⟩ := C108_account_registered app codec ops f now n c name h hf
  rcases Nat.lt_trichotomy i j with hl | rfl | hl
  · exact h2 ⟨j, hl, hj⟩
  · obtain ⟨e, he, -⟩ := h1
    rw [hj] at he
    cases he
  · exact hr i k hl h1

/-- C108: if only the row of the user is deleted, a login is with a credential that was registered, and
signed with its key.  Missing: that it was registered under the name (`C108_refuted`). -/
theorem C108_partial (app : App) (codec : CodecLaws app.env) : SomeCredentials (keyedReply app dropUser) app := by
  intro ops f now n c name h hf
  have inv := keyedInv_run (own := False) (app := app) shrinks_user (fun h => h.elim) ops
  obtain ⟨n', c', name', ch, u, row, key, user, rp, ad, h1, -, -, -, h5, h6, h7, h8, h9, h10,
    ⟨cdj, raw, sig, handle, h11, -, -, -, -, h12, -⟩⟩ := login_tables inv.handles h
  obtain ⟨rfl, rfl, rfl⟩ := submits_unique hf h1
  obtain ⟨i, name', k, g1, g2, -⟩ := inv.credentials row h7
  exact ⟨i, name', k, cdj, raw, sig, handle, h8 ▸ g1, h11, joined_signed codec g1 g2 h10 h12⟩

/-- Whichever rows are deleted, a success is for a challenge of at most 60000 ms before (C50). -/
theorem given_fresh (hs : Shrinks drop) (app : App) : GivenFresh (keyedReply app drop) app := by
  rintro ops e t n c name ⟨h, f, rfl | rfl, hf⟩
  · have inv := keyedInv_run (own := False) (app := app) hs (fun h => h.elim) ops
    have h : (registrationResponse app f t (keyedRun app drop ops)).1 = success := h
    cases hr : readResponse app true f t (keyedRun app drop ops) with
    | error r =>
      simp only [registrationResponse, hr] at h
      exact absurd h (readResponse_refuses hr)
    | ok x =>
      obtain ⟨c', ch, u⟩ := x
      obtain ⟨n', name', h1, -, h3, -, h5⟩ := readResponse_ok_iff.mp hr
      obtain ⟨rfl, rfl, rfl⟩ := submits_unique hf h1
      rcases hh : handleAttestation app.env (registrar app.env) (attestationArgs c ch u) (keyedRun app drop ops)
        with ⟨r, db'⟩
      rw [registrationResponse_eq hr hh, conclude_success] at h
      obtain ⟨hc1, hc2⟩ := challenge_some h3
      rcases handleAttestation_db app.env (attestationArgs c ch u) (keyedRun app drop ops) with ⟨-, h6⟩ |
        ⟨o, raw, acd, u', k, kb, ⟨cdj, ob, g5, ⟨cd, ⟨d, g6, -, g7, -⟩, -, g8, -⟩, -⟩, -⟩
      · rw [hh] at h6
        exact absurd h h6
      · obtain ⟨i, name', hg⟩ := inv.challenges ch hc1
        refine ⟨i, ch.request, ch.timestamp, name', d, _, Option.some.inj hc2 ▸ hg, h5, ?_, g7, g8⟩
        have g5 : c.response = _ := g5
        rw [g5]
        exact g6
  · have inv := keyedInv_run (own := False) (app := app) hs (fun h => h.elim) ops
    obtain ⟨n', c', name', ch, u, row, key, user, rp, ad, h1, h2, h3, h4, -, -, -, -, -, -,
      ⟨cdj, raw, sig, hd, g5, -, -, ⟨cd, ⟨d, g6, -, g7, -⟩, -, g8, -⟩, -⟩⟩ := login_tables inv.handles h
    obtain ⟨rfl, rfl, rfl⟩ := submits_unique hf h1
    obtain ⟨i, name', hg⟩ := inv.challenges ch h2
    refine ⟨i, ch.request, ch.timestamp, name', d, _, h3 ▸ hg, h4, ?_, g7, g8⟩
    have g5 : c.response = _ := g5
    rw [g5]
    exact g6

/-- C108: a success is for a challenge of at most 60000 ms before, whether the other rows are deleted … -/
theorem C108_account_fresh (app : App) : GivenFresh (keyedReply app dropAccount) app := given_fresh shrinks_account app

/-- … or not. -/
theorem C108_user_fresh (app : App) : GivenFresh (keyedReply app dropUser) app := given_fresh shrinks_user app

end

end WebAuthn.Flask
