import Verif.Props.FlaskOutcome
import Verif.Spec.Isolation
import Verif.Spec.Ordinary

/-!
# C76: users of the example application are isolated from each other
-/

namespace WebAuthn.Flask

open WebAuthn WebAuthn.Spec WebAuthn.Props

variable {app : App} {name : String} {db db' : Db}

/-! ## What is held about a user -/

theorem userNamed_eq (db : Db) (name : String) :
    db.userNamed name = (db.users.filter fun u => u.username = name).head? := by
  rw [List.head?_filter, Db.userNamed]
  congr 1

theorem alike_user (h : handlesOf name db = handlesOf name db') :
    db.userNamed name = none ∧ db'.userNamed name = none ∨
    ∃ u u', db.userNamed name = some u ∧ db'.userNamed name = some u' ∧ u.handle = u'.handle ∧
      u.username = name ∧ u'.username = name := by
  have hm : (db.userNamed name).map User.handle = (db'.userNamed name).map User.handle := by
    rw [userNamed_eq, userNamed_eq, ← List.head?_map, ← List.head?_map]
    exact congrArg List.head? h
  cases h1 : db.userNamed name with
  | none =>
    rw [h1, Option.map_none] at hm
    exact Or.inl ⟨rfl, by simpa using hm.symm⟩
  | some u =>
    rw [h1, Option.map_some] at hm
    obtain ⟨u', h2, h3⟩ := Option.map_eq_some_iff.mp hm.symm
    exact Or.inr ⟨u, u', rfl, h2, h3.symm, (userNamed_some h1).2, (userNamed_some h2).2⟩

theorem alike_challenge (h : issued db = issued db') (n : Option Nat) :
    db.challenge n = none ∧ db'.challenge n = none ∨
    ∃ c c', db.challenge n = some c ∧ db'.challenge n = some c' ∧ c.request = c'.request ∧
      c.timestamp = c'.timestamp := by
  cases n with
  | none => exact Or.inl ⟨rfl, rfl⟩
  | some n =>
    have hm : ∀ d : Db, (d.challenge (some n)).map (fun c => (c.id, c.request, c.timestamp)) =
        (issued d).find? fun t => t.1 == n := by
      intro d
      rw [issued, List.find?_map]
      rfl
    have hm := (hm db).trans ((congrArg _ h).trans (hm db').symm)
    cases h1 : db.challenge (some n) with
    | none =>
      rw [h1, Option.map_none] at hm
      exact Or.inl ⟨rfl, by simpa using hm.symm⟩
    | some c =>
      rw [h1, Option.map_some] at hm
      obtain ⟨c', h2, h3⟩ := Option.map_eq_some_iff.mp hm.symm
      simp only [Prod.mk.injEq] at h3
      exact Or.inr ⟨c, c', rfl, h2, h3.2.1.symm, h3.2.2.symm⟩

theorem alike_length (h : issued db = issued db') : db.challenges.length = db'.challenges.length := by
  have := congrArg List.length h
  simpa [issued] using this

theorem ownedBy_iff (hdb : Consistent db) {u : User} (hu : u ∈ db.users) (r : CredentialRow) :
    OwnedBy db u.username r ↔ r.userId = u.id := by
  constructor
  · rintro ⟨v, hv, h1, h2⟩
    rw [← h1, pairwise_unique (f := User.username) hdb.keyed.names hv hu h2]
  · exact fun h => ⟨u, hu, h.symm, rfl⟩

theorem holdings_eq (hdb : Consistent db) {u : User} (hu : u ∈ db.users) :
    holdings u.username db =
      (db.credentials.filter fun r => r.userId == u.id).map fun r => (r.id, r.count, r.key) := by
  rw [holdings]
  congr 1
  refine List.filter_congr fun r _ => ?_
  rw [Bool.eq_iff_iff, decide_eq_true_iff, beq_iff_eq]
  exact ownedBy_iff hdb hu r

theorem mem_holdings {t : Bytes × Option Int × Bytes} :
    t ∈ holdings name db ↔ ∃ r ∈ db.credentials, OwnedBy db name r ∧ (r.id, r.count, r.key) = t := by
  simp only [holdings, List.mem_map, List.mem_filter, decide_eq_true_iff, and_assoc]

/-! ## What requests of others change -/

theorem handles_add {db : Db} {u : User} (hu : u.username ≠ name) (cs : List CredentialRow)
    (chs : List Challenge) : handlesOf name ⟨db.users ++ [u], cs, chs⟩ = handlesOf name db := by
  simp [handlesOf, List.filter_append, hu]

theorem owned_add {db : Db} {u : User} (hu : u.username ≠ name) (cs : List CredentialRow)
    (chs : List Challenge) (r : CredentialRow) :
    OwnedBy ⟨db.users ++ [u], cs, chs⟩ name r ↔ OwnedBy db name r := by
  constructor
  · rintro ⟨v, hv, h1, h2⟩
    rw [List.mem_append, List.mem_singleton] at hv
    rcases hv with hv | rfl
    · exact ⟨v, hv, h1, h2⟩
    · exact absurd h2 hu
  · rintro ⟨v, hv, h⟩
    exact ⟨v, List.mem_append_left _ hv, h⟩

theorem holdings_congr {db db' : Db} (hc : db'.credentials = db.credentials)
    (h : ∀ r ∈ db.credentials, OwnedBy db' name r ↔ OwnedBy db name r) :
    holdings name db' = holdings name db := by
  rw [holdings, holdings, hc]
  congr 1
  refine List.filter_congr fun r hr => ?_
  rw [Bool.eq_iff_iff, decide_eq_true_iff, decide_eq_true_iff]
  exact h r hr

/-- A user table after a registration request of somebody else. -/
theorem userFor_leaves {n : String} {h : Bytes} {u : User} {users : List User}
    (hu : UserFor db n h u users) (hn : n ≠ name) (chs : List Challenge) :
    handlesOf name ⟨users, db.credentials, chs⟩ = handlesOf name db ∧
    holdings name ⟨users, db.credentials, chs⟩ = holdings name db := by
  cases hu with
  | known => exact ⟨rfl, rfl⟩
  | new =>
    exact ⟨handles_add hn _ _, holdings_congr rfl fun r _ => owned_add hn _ _ r⟩

/-- The rows after a login of somebody else. -/
theorem holdings_count {id : Bytes} {n : Option Int}
    (h : ∀ r ∈ db.credentials, OwnedBy db name r → r.id = id → r.count = n) :
    holdings name { db with credentials := db.credentials.map fun a =>
      if a.id = id then { a with count := n } else a } = holdings name db := by
  have ho : ∀ r, OwnedBy { db with credentials := db.credentials.map fun a =>
      if a.id = id then { a with count := n } else a } name r ↔ OwnedBy db name r := fun _ => Iff.rfl
  simp only [holdings, ho, List.filter_map, List.map_map]
  have hf : db.credentials.filter ((fun r => decide (OwnedBy db name r)) ∘ fun a =>
      if a.id = id then { a with count := n } else a) =
      db.credentials.filter fun r => decide (OwnedBy db name r) := by
    refine List.filter_congr fun r _ => ?_
    simp only [Function.comp]
    split <;> rfl
  rw [hf]
  refine List.map_congr_left fun r hr => ?_
  rw [List.mem_filter, decide_eq_true_iff] at hr
  simp only [Function.comp]
  split
  · rename_i hid
    rw [← h r hr.1 hr.2 hid]
  · rfl

/-- C76: requests that carry another name change nothing about a user: neither the handle
nor the credentials, their keys and their counters. -/
theorem C76_others_leave (app : App) {db : Db} (hdb : Consistent db) {name : String} {e : Event}
    (he : e.name ≠ some name) :
    handlesOf name (step app e db).2 = handlesOf name db ∧
    holdings name (step app e db).2 = holdings name db := by
  have ho := C64_outcome app hdb e
  generalize (step app e db).1 = r at ho
  generalize (step app e db).2 = d at ho ⊢
  cases ho with
  | registrationChallengeTaken n h ch t u users c hu =>
    exact userFor_leaves hu (fun e => he (by rw [Event.name, e])) _
  | registrationIssued n h ch t u users v hu =>
    exact userFor_leaves hu (fun e => he (by rw [Event.name, e])) _
  | registered f t c ch u k key hr =>
    obtain ⟨cid, ⟨-, -, -, -, -, -, hn⟩, -⟩ := hr.cid
    refine ⟨rfl, ?_⟩
    have : ¬ OwnedBy db name ⟨c.rawId, none, key, u.id⟩ := by
      rintro ⟨v, hv, h1, h2⟩
      rw [hdb.keyed.userId_unique hv hr.user h1] at h2
      exact he (by rw [Event.name, hn, h2])
    show holdings name { db with credentials := _ } = _
    rw [holdings, List.filter_append, List.map_append]
    have h2 : ∀ r, OwnedBy { db with credentials := db.credentials ++ [⟨c.rawId, none, key, u.id⟩] }
        name r ↔ OwnedBy db name r := fun r => Iff.rfl
    simp only [h2]
    rw [List.filter_cons_of_neg (by simpa using this)]
    simp [holdings]
  | loggedIn f t c ch u row cd user rp ad hr h1 h2 hs ha =>
    obtain ⟨cid, ⟨-, -, -, -, -, -, hn⟩, -⟩ := hr.cid
    refine ⟨rfl, ?_⟩
    obtain ⟨-, -, v, -, -, hv, hvid, -, hcd, -⟩ := hs
    obtain ⟨_, _, _, _, -, huser, -⟩ := ha
    have hvu : v = u := by
      refine hdb.keyed.handle_unique hv hr.user ?_
      rw [hcd] at huser
      cases huser with
      | given _ _ h => exact h.symm
    have hother : ∀ r ∈ db.credentials, OwnedBy db name r → r.id ≠ c.rawId := by
      rintro r hrow ⟨w, hw, hw1, hw2⟩ hid
      rw [pairwise_unique (f := CredentialRow.id) hdb.keyed.credentialIds hrow h1
        (hid.trans h2.symm), ← hvid] at hw1
      rw [hdb.keyed.userId_unique hw hv hw1, hvu] at hw2
      exact he (by rw [Event.name, hn, hw2])
    exact holdings_count (fun r hr' ho hid => absurd hid (hother r hr' ho))
  | _ => exact ⟨rfl, rfl⟩

/-! ## What the user's own requests do -/

theorem addChallenge_alike (h : issued db = issued db') (ch : Bytes) (t : Int) (n n' : Nat) :
    (∃ e, db.addChallenge ch t n = (.error e, db) ∧ db'.addChallenge ch t n' = (.error e, db')) ∨
    ∃ id, db.addChallenge ch t n =
        (.ok id, { db with challenges := db.challenges ++ [⟨id, ch, t, n⟩] }) ∧
      db'.addChallenge ch t n' =
        (.ok id, { db' with challenges := db'.challenges ++ [⟨id, ch, t, n'⟩] }) := by
  have ha : ∀ d : Db, d.challenges.any (fun c => c.request == ch) =
      (issued d).any fun x => x.2.1 == ch := fun d => by
    simp only [issued, List.any_map, Function.comp_def]
  have ha : db.challenges.any (fun c => c.request == ch) =
      db'.challenges.any fun c => c.request == ch := by rw [ha, ha, h]
  unfold Db.addChallenge
  rw [ha, alike_length h]
  split
  · exact Or.inl ⟨_, rfl, rfl⟩
  · exact Or.inr ⟨_, rfl, rfl⟩

theorem issued_add (db : Db) (us : List User) (id : Nat) (ch : Bytes) (t : Int) (n : Nat) :
    issued ⟨us, db.credentials, db.challenges ++ [⟨id, ch, t, n⟩]⟩ = issued db ++ [(id, ch, t)] := by
  simp [issued]

theorem alike_issue (h : Alike name db db') (id : Nat) (ch : Bytes) (t : Int) (n n' : Nat) :
    Alike name { db with challenges := db.challenges ++ [⟨id, ch, t, n⟩] }
      { db' with challenges := db'.challenges ++ [⟨id, ch, t, n'⟩] } where
  handles := h.handles
  holdings := h.holdings
  issued := by rw [issued_add, issued_add, h.issued]

/-- A new user has no credentials. -/
theorem holdings_new (hdb : Consistent db) (h : Bytes) :
    holdings name { db with users := db.users ++ [⟨db.users.length + 1, name, h⟩] } =
      holdings name db := by
  refine holdings_congr rfl fun r hr => ?_
  obtain ⟨w, hw, hwid⟩ := hdb.owner r hr
  constructor
  · rintro ⟨v, hv, h1, h2⟩
    rw [List.mem_append, List.mem_singleton] at hv
    rcases hv with hv | rfl
    · exact ⟨v, hv, h1, h2⟩
    · obtain ⟨i, hi⟩ := List.mem_iff_getElem?.mp hw
      have h3 := hdb.keyed.userIds i w hi
      have h4 := (List.getElem?_eq_some_iff.mp hi).1
      simp only at h1
      omega
  · rintro ⟨v, hv, h⟩
    exact ⟨v, List.mem_append_left _ hv, h⟩

theorem findOrAdd_alike (hdb : Consistent db) (hdb' : Consistent db') (h : Alike name db db')
    {nh : Bytes} (hn : ∀ u ∈ db.users, u.handle = nh → u.username = name)
    (hn' : ∀ u ∈ db'.users, u.handle = nh → u.username = name) :
    ∃ u u' d d', findOrAddUser db name nh = (.ok u, d) ∧ findOrAddUser db' name nh = (.ok u', d') ∧
      u.handle = u'.handle ∧ Alike name d d' := by
  rcases alike_user h.handles with ⟨h1, h2⟩ | ⟨u, u', h1, h2, h3, -⟩
  · have key : ∀ d : Db, d.userNamed name = none → (∀ u ∈ d.users, u.handle = nh → u.username = name) →
        findOrAddUser d name nh = (.ok ⟨d.users.length + 1, name, nh⟩,
          { d with users := d.users ++ [⟨d.users.length + 1, name, nh⟩] }) := by
      intro d hd hc
      simp only [findOrAddUser, hd, Db.addUser]
      rw [if_neg]
      simp only [List.any_eq_true, Bool.or_eq_true, beq_iff_eq, not_exists, not_and, not_or]
      intro u hu
      have hne : u.username ≠ name := fun he =>
        absurd (List.find?_eq_none.mp hd u hu) (by simp [he])
      exact ⟨hne, fun he => hne (hc u hu he)⟩
    refine ⟨_, _, _, _, key db h1 hn, key db' h2 hn', rfl, ?_, ?_, h.issued⟩
    · have := h.handles
      simp only [handlesOf, List.filter_append, List.map_append] at this ⊢
      rw [this]
      simp
    · rw [holdings_new hdb, holdings_new hdb', h.holdings]
  · exact ⟨u, u', db, db', by simp only [findOrAddUser, h1], by simp only [findOrAddUser, h2], h3, h⟩

theorem registrationRequest_alike (hdb : Consistent db) (hdb' : Consistent db')
    (h : Alike name db db') {nh ch : Bytes} {t : Int}
    (hn : ∀ u ∈ db.users, u.handle = nh → u.username = name)
    (hn' : ∀ u ∈ db'.users, u.handle = nh → u.username = name) :
    (registrationRequest (some name) nh ch t db).1 = (registrationRequest (some name) nh ch t db').1 ∧
    Alike name (registrationRequest (some name) nh ch t db).2
      (registrationRequest (some name) nh ch t db').2 := by
  obtain ⟨u, u', d, d', h1, h2, h3, h4⟩ := findOrAdd_alike hdb hdb' h hn hn'
  unfold registrationRequest
  simp only [h1, h2]
  rcases addChallenge_alike h4.issued ch t u.id u'.id with ⟨e, h5, h6⟩ | ⟨id, h5, h6⟩
  · simp only [h5, h6]
    exact ⟨trivial, h4⟩
  · simp only [h5, h6, h3]
    exact ⟨trivial, alike_issue h4 id ch t u.id u'.id⟩

theorem authenticationRequest_alike (hdb : Consistent db) (hdb' : Consistent db')
    (h : Alike name db db') {ch : Bytes} {t : Int} :
    (authenticationRequest (some name) ch t db).1 = (authenticationRequest (some name) ch t db').1 ∧
    Alike name (authenticationRequest (some name) ch t db).2
      (authenticationRequest (some name) ch t db').2 := by
  unfold authenticationRequest
  rcases alike_user h.handles with ⟨h1, h2⟩ | ⟨u, u', h1, h2, h3, h4, h5⟩
  · simp only [h1, h2]
    exact ⟨trivial, h⟩
  · simp only [h1, h2]
    have hr : ((db.credentials.filter fun c => c.userId == u.id).map fun c =>
          ({ id := c.id } : FullDescriptor)) =
        (db'.credentials.filter fun c => c.userId == u'.id).map fun c => { id := c.id } := by
      have e1 := holdings_eq hdb (userNamed_some h1).1
      have e2 := holdings_eq hdb' (userNamed_some h2).1
      rw [h4] at e1
      rw [h5] at e2
      have := congrArg (List.map fun x : Bytes × Option Int × Bytes =>
        ({ id := x.1 } : FullDescriptor)) (e1.symm.trans (h.holdings.trans e2))
      simpa only [List.map_map, Function.comp_def] using this
    rcases addChallenge_alike h.issued ch t u.id u'.id with ⟨e, h6, h7⟩ | ⟨id, h6, h7⟩
    · simp only [h6, h7]
      exact ⟨trivial, h⟩
    · simp only [h6, h7, hr]
      exact ⟨trivial, alike_issue h id ch t u.id u'.id⟩

theorem readResponse_alike (h : Alike name db db') {att : Bool} {f : Form} {t : Int}
    (hf : f.username = some name) :
    (∃ r, readResponse app att f t db = .error r ∧ readResponse app att f t db' = .error r) ∨
    ∃ c ch ch' u u' cid, readResponse app att f t db = .ok (c, ch, u) ∧
      readResponse app att f t db' = .ok (c, ch', u') ∧ ch.request = ch'.request ∧
      u.handle = u'.handle ∧ u.username = name ∧ u'.username = name ∧ u ∈ db.users ∧
      u' ∈ db'.users ∧ Readable app f cid c name := by
  unfold readResponse
  cases hp : parseForm app.env f with
  | error e =>
    simp only
    split <;> exact Or.inl ⟨_, rfl, rfl⟩
  | ok x =>
    obtain ⟨cid, c, n⟩ := x
    have hrd := readable_iff.mp hp
    obtain ⟨-, hn, -⟩ := parseForm_ok_iff.mp hp
    rw [hf] at hn
    cases hn
    simp only
    split
    · exact Or.inl ⟨_, rfl, rfl⟩
    rcases alike_challenge h.issued (app.rowId cid) with ⟨h1, h2⟩ | ⟨ch, ch', h1, h2, h3, h4⟩
    · simp only [h1, h2]
      exact Or.inl ⟨_, rfl, rfl⟩
    simp only [h1, h2]
    rcases alike_user h.handles with ⟨h5, h6⟩ | ⟨u, u', h5, h6, h7, h8, h9⟩
    · simp only [h5, h6]
      exact Or.inl ⟨_, rfl, rfl⟩
    simp only [h5, h6, h4]
    split
    · exact Or.inl ⟨_, rfl, rfl⟩
    · exact Or.inr ⟨c, ch, ch', u, u', cid, rfl, rfl, h3, h7, h8, h9, (userNamed_some h5).1,
        (userNamed_some h6).1, hrd⟩

theorem holdings_register {u : User} (hu : u ∈ db.users)
    (hn : u.username = name) (id key : Bytes) :
    holdings name { db with credentials := db.credentials ++ [⟨id, none, key, u.id⟩] } =
      holdings name db ++ [(id, none, key)] := by
  have ho : ∀ r, OwnedBy { db with credentials := db.credentials ++ [⟨id, none, key, u.id⟩] }
      name r ↔ OwnedBy db name r := fun _ => Iff.rfl
  simp only [holdings, ho, List.filter_append, List.map_append]
  rw [List.filter_cons_of_pos]
  · rfl
  · simp only [decide_eq_true_iff]
    exact ⟨u, hu, rfl, hn⟩

theorem taken_alike (h : Alike name db db') {id : Bytes}
    (hn : ∀ r ∈ db.credentials, r.id = id → OwnedBy db name r)
    (hn' : ∀ r ∈ db'.credentials, r.id = id → OwnedBy db' name r) :
    (db.credentials.any fun c => c.id == id) = db'.credentials.any fun c => c.id == id := by
  have key : ∀ d : Db, (∀ r ∈ d.credentials, r.id = id → OwnedBy d name r) →
      ((d.credentials.any fun c => c.id == id) = true ↔ ∃ t ∈ holdings name d, t.1 = id) := by
    intro d hd
    simp only [List.any_eq_true, beq_iff_eq, mem_holdings]
    constructor
    · rintro ⟨r, hr, he⟩
      exact ⟨_, ⟨r, hr, hd r hr he, rfl⟩, he⟩
    · rintro ⟨t, ⟨r, hr, -, rfl⟩, he⟩
      exact ⟨r, hr, he⟩
  rw [Bool.eq_iff_iff, key db hn, key db' hn', h.holdings]

theorem registerAttestation_alike (hdb : Consistent db) (hdb' : Consistent db')
    (h : Alike name db db') {u u' : User} (hu : u ∈ db.users) (hu' : u' ∈ db'.users)
    (hun : u.username = name) (hun' : u'.username = name) (hh : u.handle = u'.handle)
    {r : AttestationRecord} (hr : r.user.id = u.handle)
    (hn : ∀ row ∈ db.credentials, row.id = r.credential.rawId → OwnedBy db name row)
    (hn' : ∀ row ∈ db'.credentials, row.id = r.credential.rawId → OwnedBy db' name row) :
    (registerAttestation app.env r db).1 = (registerAttestation app.env r db').1 ∧
    Alike name (registerAttestation app.env r db).2 (registerAttestation app.env r db').2 := by
  have h1 : db.userOfHandle r.user.id = some u := hr ▸ hdb.keyed.find_handle hu
  have h2 : db'.userOfHandle r.user.id = some u' := by
    rw [hr, hh]
    exact hdb'.keyed.find_handle hu'
  unfold registerAttestation
  cases r.att.authData.attested with
  | none => exact ⟨rfl, h⟩
  | some acd =>
    simp only [h1, h2]
    cases acd.credentialPublicKey with
    | none => exact ⟨rfl, h⟩
    | some k =>
      simp only
      cases coseKey app.env k with
      | error e => exact ⟨rfl, h⟩
      | ok key =>
        simp only [taken_alike h hn hn']
        split
        · exact ⟨rfl, h⟩
        · refine ⟨rfl, h.handles, ?_, h.issued⟩
          rw [holdings_register hu hun, holdings_register hu' hun', h.holdings]

theorem attestationArgs_alike {c : Credential} {ch ch' : Challenge} {u u' : User}
    (h1 : ch.request = ch'.request) (h2 : u.handle = u'.handle) (h3 : u.username = u'.username) :
    attestationArgs c ch u = attestationArgs c ch' u' := by
  simp only [attestationArgs, User.entity, h1, h2, h3]

theorem assertionArgs_alike {c : Credential} {ch ch' : Challenge} {u u' : User}
    (h1 : ch.request = ch'.request) (h2 : u.handle = u'.handle) (h3 : u.username = u'.username) :
    assertionArgs c ch u = assertionArgs c ch' u' := by
  simp only [assertionArgs, User.entity, h1, h2, h3]

theorem registrationResponse_alike (hdb : Consistent db) (hdb' : Consistent db')
    (h : Alike name db db') {f : Form} {t : Int} (hf : f.username = some name)
    (hn : NoClash app name db (.registrationResponse f t))
    (hn' : NoClash app name db' (.registrationResponse f t)) :
    (registrationResponse app f t db).1 = (registrationResponse app f t db').1 ∧
    Alike name (registrationResponse app f t db).2 (registrationResponse app f t db').2 := by
  unfold registrationResponse
  rcases readResponse_alike (app := app) (att := true) (t := t) h hf with ⟨r, h1, h2⟩ |
    ⟨c, ch, ch', u, u', cid, h1, h2, h3, h4, h5, h6, h7, h8, h9⟩
  · simp only [h1, h2]
    exact ⟨trivial, h⟩
  · simp only [h1, h2, attestationArgs_alike (c := c) h3 h4 (h5.trans h6.symm)]
    unfold handleAttestation
    cases hc : attestationChecks app.env (attestationArgs c ch' u') with
    | error e => exact ⟨rfl, h⟩
    | ok r =>
      obtain ⟨-, -, -, e1, -, e2, -⟩ := attestationChecks_ok_iff.mp hc
      obtain ⟨k1, k2⟩ := registerAttestation_alike (app := app) hdb hdb' h h7 h8 h5 h6 h4 (r := r)
        (by rw [e2]; exact h4.symm)
        (by rw [e1]; exact hn cid c name h9) (by rw [e1]; exact hn' cid c name h9)
      simp only [registrar]
      rw [k1]
      exact ⟨rfl, k2⟩

/-- The answer to a login with a credential the user has. -/
theorem credentialData_own (hdb : Consistent db) {u : User} (hu : u ∈ db.users)
    {row : CredentialRow} (hr : row ∈ db.credentials) (ho : OwnedBy db u.username row) :
    credentialData app.env row.id db = do
      let key ← parseCoseKeyBytes app.env row.key
      return some ⟨key, row.count, u.entity, none⟩ := by
  rw [ownedBy_iff hdb hu] at ho
  unfold credentialData
  rw [hdb.keyed.find_credential hr]
  simp only [ho, hdb.keyed.find_id hu]

/-- A login with a credential the user does not have is refused. -/
theorem handleAssertion_foreign (hcbor : ∀ b, Ordinary (app.env.cborLoad b)) (hdb : Consistent db)
    {c : Credential} {ch : Challenge} {u : User} (hu : u ∈ db.users) {allowed : List Origin}
    (hp : assertionPre app.env (assertionArgs c ch u) = .ok allowed)
    (hn : ∀ row ∈ db.credentials, row.id = c.rawId → ¬ OwnedBy db u.username row) :
    ∃ e, handleAssertion app.env (registrar app.env) (assertionArgs c ch u) db = (.error (.lib e), db) := by
  have hgd : ∀ d, (registrar app.env).getCredentialData (assertionArgs c ch u).credential.rawId d =
    (credentialData app.env c.rawId d, d) := fun _ => rfl
  unfold handleAssertion
  simp only [hp, hgd]
  cases hc : db.credential c.rawId with
  | none =>
    simp only [credentialData, hc]
    exact ⟨_, rfl⟩
  | some row =>
    obtain ⟨h1, h2⟩ := credential_some hc
    obtain ⟨w, hw, hwid⟩ := hdb.owner row h1
    simp only [credentialData, hc]
    cases hk : parseCoseKeyBytes app.env row.key with
    | error e =>
      have he : e.isException = true := by
        rw [parseCoseKeyBytes_error_iff] at hk
        cases hk with
        | notKey => rfl
        | notCbor e x h ht =>
          cases ht with
          | caught => rfl
          | passes =>
            cases e with
            | base n => exact absurd rfl (hcbor _ _ h n)
            | _ => rfl
      simp only [error_bind, checkRead, he]
      exact ⟨_, rfl⟩
    | ok key =>
      simp only [ok_bind, ← hwid, hdb.keyed.find_id hw, checkRead, pure_eq_ok]
      have hne : (w.handle == u.handle) = false := by
        rw [beq_eq_false_iff_ne]
        intro he
        have := hdb.keyed.handle_unique hw hu he
        exact hn row h1 h2 ⟨w, hw, hwid, by rw [this]⟩
      simp only [assertionChecks, resolveUser, effectiveUser, assertionArgs, User.entity, hne,
        require, Bool.false_eq_true, if_false, error_bind, raise]
      exact ⟨_, rfl⟩

theorem holdings_login (id : Bytes) (n : Int) :
    holdings name { db with credentials := db.credentials.map (setCount id n) } =
      (holdings name db).map fun t => if t.1 = id then (t.1, some n, t.2.2) else t := by
  have ho : ∀ r, OwnedBy { db with credentials := db.credentials.map (setCount id n) } name r ↔
      OwnedBy db name r := fun _ => Iff.rfl
  simp only [holdings, ho, List.filter_map, List.map_map]
  have hf : db.credentials.filter ((fun r => decide (OwnedBy db name r)) ∘ setCount id n) =
      db.credentials.filter fun r => decide (OwnedBy db name r) := by
    refine List.filter_congr fun r _ => ?_
    simp only [Function.comp, setCount]
    split <;> rfl
  rw [hf]
  refine List.map_congr_left fun r _ => ?_
  simp only [Function.comp, setCount, beq_iff_eq]
  split <;> rfl

theorem authenticationResponse_alike (hcbor : ∀ b, Ordinary (app.env.cborLoad b))
    (hdb : Consistent db) (hdb' : Consistent db') (h : Alike name db db') {f : Form} {t : Int}
    (hf : f.username = some name) :
    (authenticationResponse app f t db).1 = (authenticationResponse app f t db').1 ∧
    Alike name (authenticationResponse app f t db).2 (authenticationResponse app f t db').2 := by
  unfold authenticationResponse
  rcases readResponse_alike (app := app) (att := false) (t := t) h hf with ⟨r, h1, h2⟩ |
    ⟨c, ch, ch', u, u', cid, h1, h2, h3, h4, h5, h6, h7, h8, -⟩
  · simp only [h1, h2]
    exact ⟨trivial, h⟩
  simp only [h1, h2]
  have ha := assertionArgs_alike (c := c) h3 h4 (h5.trans h6.symm)
  cases hp : assertionPre app.env (assertionArgs c ch u) with
  | error e =>
    have hp' := hp
    rw [ha] at hp'
    simp only [handleAssertion, hp, hp']
    exact ⟨trivial, h⟩
  | ok allowed =>
    have hp' := hp
    rw [ha] at hp'
    by_cases hown : ∃ t ∈ holdings name db, t.1 = c.rawId
    · have hown' := hown
      rw [h.holdings] at hown'
      obtain ⟨t, ht, hid⟩ := hown
      have ht' := ht
      rw [h.holdings] at ht'
      obtain ⟨r, hr, ho, rfl⟩ := mem_holdings.mp ht
      obtain ⟨r', hr', ho', he⟩ := mem_holdings.mp ht'
      simp only [Prod.mk.injEq] at he
      obtain ⟨e1, e2, e3⟩ := he
      simp only at hid
      rw [← h5] at ho
      rw [← h6] at ho'
      have hcd : credentialData app.env c.rawId db = credentialData app.env c.rawId db' := by
        rw [← hid, credentialData_own hdb h7 hr ho, ← e1, credentialData_own hdb' h8 hr' ho', e2, e3]
        simp only [User.entity, h4, h5, h6]
      have hc1 : db.credential c.rawId = some r := hid ▸ hdb.keyed.find_credential hr
      have hc2 : db'.credential c.rawId = some r' := hid ▸ e1 ▸ hdb'.keyed.find_credential hr'
      simp only [handleAssertion, hp, hp', registrar]
      have hra' : (assertionArgs c ch' u').credential.rawId = c.rawId := rfl
      simp only [hra', hcd, ha]
      cases checkRead (credentialData app.env c.rawId db') with
      | error e => exact ⟨rfl, h⟩
      | ok cd =>
        simp only
        cases hck : assertionChecks app.env (assertionArgs c ch' u') allowed cd with
        | error e => exact ⟨rfl, h⟩
        | ok rec =>
          have hrec : rec.credential = c := by
            simp only [assertionPre, bind_ok_iff, assertionArgs, pure_eq_ok, Except.ok.injEq] at hp'
            obtain ⟨al, hal, rfl⟩ := hp'
            exact ((assertionChecks_ok_iff hal).mp hck).1
          simp only [registerAssertion, hrec, hc1, hc2]
          refine ⟨trivial, h.handles, ?_, h.issued⟩
          rw [holdings_login, holdings_login, h.holdings]
    · have hown' := hown
      rw [h.holdings] at hown'
      have key : ∀ {d : Db} {v : User}, v.username = name → (¬ ∃ t ∈ holdings name d, t.1 = c.rawId) →
          ∀ row ∈ d.credentials, row.id = c.rawId → ¬ OwnedBy d v.username row := by
        intro d v hv hd row hrow hid ho
        rw [hv] at ho
        exact hd ⟨_, mem_holdings.mpr ⟨row, hrow, ho, rfl⟩, hid⟩
      obtain ⟨e, he⟩ := handleAssertion_foreign hcbor hdb h7 hp (key h5 hown)
      obtain ⟨e', he'⟩ := handleAssertion_foreign hcbor hdb' h8 hp' (key h6 hown')
      simp only [he, he']
      exact ⟨rfl, h⟩

/-- C76: what the application holds about a user and the challenges determine the reply to
a request of the user, whatever else is in the database. -/
theorem C76_same_reply {app : App} (hcbor : ∀ b, Ordinary (app.env.cborLoad b)) {db db' : Db}
    (hdb : Consistent db) (hdb' : Consistent db') {name : String} (h : Alike name db db') {e : Event}
    (he : e.name = some name) (hn : NoClash app name db e) (hn' : NoClash app name db' e) :
    (step app e db).1 = (step app e db').1 ∧ Alike name (step app e db).2 (step app e db').2 := by
  cases e with
  | registrationRequest n nh ch t =>
    obtain rfl : n = some name := he
    exact registrationRequest_alike hdb hdb' h hn hn'
  | registrationResponse f t => exact registrationResponse_alike hdb hdb' h he hn hn'
  | authenticationRequest n ch t =>
    obtain rfl : n = some name := he
    exact authenticationRequest_alike hdb hdb' h
  | authenticationResponse f t => exact authenticationResponse_alike hcbor hdb hdb' h he

/-- After matched histories the application holds the same about the user. -/
theorem C76_alike {app : App} (hcbor : ∀ b, Ordinary (app.env.cborLoad b)) {name : String}
    {evs evs' : List Event} (h : Matched app name evs evs') :
    Alike name (run app evs) (run app evs') := by
  induction h with
  | nil => exact ⟨rfl, rfl, rfl⟩
  | own evs evs' e _ he hn hn' ih =>
    rw [run_snoc, run_snoc]
    exact (C76_same_reply hcbor (C64_consistent_history app evs) (C64_consistent_history app evs') ih
      he hn hn').2
  | others evs evs' as bs _ ha hb hi ih =>
    have key : ∀ l l' : List Event, (∀ e ∈ l', e.name ≠ some name) →
        handlesOf name (run app (l ++ l')) = handlesOf name (run app l) ∧
        holdings name (run app (l ++ l')) = holdings name (run app l) := by
      intro l l' hl
      induction l' generalizing l with
      | nil => simp
      | cons e l' ih =>
        have h1 := ih (l ++ [e]) fun x hx => hl x (List.mem_cons_of_mem _ hx)
        rw [List.append_assoc] at h1
        have h2 := C76_others_leave app (C64_consistent_history app l) (hl e List.mem_cons_self)
        rw [← run_snoc] at h2
        exact ⟨h1.1.trans h2.1, h1.2.trans h2.2⟩
    obtain ⟨k1, k2⟩ := key evs as ha
    obtain ⟨k3, k4⟩ := key evs' bs hb
    exact ⟨k1.trans (ih.handles.trans k3.symm), k2.trans (ih.holdings.trans k4.symm), hi⟩

/-- C76: what other users do makes no difference to the replies that a user gets. -/
theorem C76_history {app : App} (hcbor : ∀ b, Ordinary (app.env.cborLoad b)) {name : String}
    {evs evs' : List Event} (h : Matched app name evs evs') {e : Event} (he : e.name = some name)
    (hn : NoClash app name (run app evs) e) (hn' : NoClash app name (run app evs') e) :
    reply app evs e = reply app evs' e :=
  (C76_same_reply hcbor (C64_consistent_history app evs) (C64_consistent_history app evs')
    (C76_alike hcbor h) he hn hn').1

/-- C76: the exception for credential ids is needed: if somebody has the credential id, the
registration that otherwise succeeds is refused. -/
theorem C76_taken {app : App} {db db' : Db} (hdb : Consistent db) (hdb' : Consistent db')
    {name : String} (h : Alike name db db') {f : Form} {t : Int} (hf : f.username = some name)
    (hs : (step app (.registrationResponse f t) db).1 = success)
    {cid n : String} {c : Credential} (hc : Readable app f cid c n) {row : CredentialRow}
    (hrow : row ∈ db'.credentials) (hid : row.id = c.rawId) :
    step app (.registrationResponse f t) db' =
      (.text "Could not handle credential attestation" 400, db') := by
  have ho := C64_outcome app hdb (.registrationResponse f t)
  rw [hs, success] at ho
  generalize (step app (.registrationResponse f t) db).2 = d at ho
  generalize hr : Reply.text "Success" 200 = r at ho
  have hkind : ∀ r, ForRegistration r ↔ isAttestation r = true := by
    intro r
    cases r <;> simp [ForRegistration, isAttestation]
  cases ho with
  | registrationUnread _ _ _ h => cases h <;> simp at hr
  | registrationRefused _ _ _ _ _ _ _ _ _ _ _ h => cases h <;> simp at hr
  | registrationNoKey _ _ _ _ _ _ _ _ _ _ _ _ h1 h2 => cases h1 <;> cases h2 <;> simp at hr
  | registrationTaken => simp at hr
  | registered _ _ c1 ch u k key h1 h2 h3 h4 =>
    have hread := (read_iff hkind hdb).mpr h1
    rcases readResponse_alike (app := app) (att := true) (t := t) h hf with ⟨_, e1, -⟩ |
      ⟨c2, ch2, ch', u2, u', cid', e1, e2, e3, e4, e5, e6, e7, e8, e9⟩
    · rw [hread] at e1
      cases e1
    rw [hread, Except.ok.injEq, Prod.mk.injEq, Prod.mk.injEq] at e1
    obtain ⟨rfl, rfl, rfl⟩ := e1
    obtain ⟨rfl, rfl, rfl⟩ : cid = cid' ∧ c = c1 ∧ n = name := by
      have a1 := readable_iff.mpr hc
      have a2 := readable_iff.mpr e9
      rw [a1, Except.ok.injEq, Prod.mk.injEq, Prod.mk.injEq] at a2
      exact a2
    have hcall : RegistrationCall c ch u = RegistrationCall c ch' u' := by
      simp only [RegistrationCall, entityOf, e3, e4, e5, e6]
    have ho' : Outcome app db' (.registrationResponse f t)
        (.text "Could not handle credential attestation" 400) db' := by
      refine .registrationTaken f t c ch' u' k key row ((read_iff hkind hdb').mp e2) ?_ h3 hrow hid
      rw [Attests, hcall] at h2
      exact h2
    obtain ⟨h5, h6⟩ := C64_only hdb' ho'
    rcases h5 with h5 | ⟨_, _, _, _, _, _, h5, -⟩ | ⟨_, _, _, _, _, h5, -⟩
    · exact Prod.ext h5.symm h6.symm
    · cases h5
    · cases h5

end WebAuthn.Flask
