import Verif.Spec.FlaskThreads
import Verif.Props.FlaskHonest

/-!
# Lemmas about requests in progress at the same time
-/

namespace WebAuthn.Flask

open WebAuthn WebAuthn.Spec WebAuthn.Props

/-! ## One request alone -/

theorem handlerTask_run (env : Env) (m : String) (p : Prog) (db : Db) :
    (handlerTask env m p).run db =
      (conclude m (p.run (registrar env) db).1, (p.run (registrar env) db).2) := by
  induction p generalizing db with
  | done r => rfl
  | read id k ih =>
    have hq : (registrar env).getCredentialData id db = (credentialData env id db, db) := rfl
    simp only [handlerTask, Task.run, Prog.run, hq]
    unfold credentialData
    cases db.credential id with
    | none => exact ih _ _
    | some c =>
      simp only
      cases parseCoseKeyBytes env c.key with
      | error e => exact ih _ _
      | ok key =>
        simp only [Task.run, ok_bind]
        cases db.userOfId c.userId with
        | none => exact ih _ _
        | some u => exact ih _ _
  | writeAttestation r k ih =>
    have hq : (registrar env).registerAttestation r db = registerAttestation env r db := rfl
    simp only [handlerTask, Prog.run, hq]
    unfold registerAttestation
    cases r.att.authData.attested with
    | none => exact ih _ _
    | some acd =>
      simp only [Task.run]
      cases db.userOfHandle r.user.id with
      | none => exact ih _ _
      | some u =>
        simp only
        cases acd.credentialPublicKey with
        | none => exact ih _ _
        | some cpk =>
          simp only
          cases coseKey env cpk with
          | error e => exact ih _ _
          | ok key =>
            simp only [Task.run, Db.addCredential]
            by_cases hc : (db.credentials.any fun c => c.id == r.credential.rawId) = true
            · rw [if_pos hc, if_pos hc]
              exact ih _ _
            · rw [if_neg hc, if_neg hc]
              exact ih _ _
  | writeAssertion r k ih =>
    have hq : (registrar env).registerAssertion r db = registerAssertion r db := rfl
    simp only [handlerTask, Task.run, Prog.run, hq]
    unfold registerAssertion
    cases db.credential r.credential.rawId with
    | none => exact ih _ _
    | some c => exact ih _ _

theorem readTask_run (app : App) (att : Bool) (f : Form) (now : Int)
    (k : Credential → Challenge → User → Task) (db : Db) :
    (readTask app att f now k).run db =
      match readResponse app att f now db with
      | .error r => (r, db)
      | .ok (c, ch, u) => (k c ch u).run db := by
  unfold readTask readResponse
  cases parseForm app.env f with
  | error e =>
    simp only
    split <;> rfl
  | ok x =>
    obtain ⟨cid, c, name⟩ := x
    simp only
    split
    · rfl
    · simp only [Task.run]
      cases db.challenge (app.rowId cid) with
      | none => rfl
      | some ch =>
        simp only [Task.run]
        cases db.userNamed name with
        | none => rfl
        | some u =>
          simp only
          split <;> rfl

theorem creationTask_run (name : String) (ch : Bytes) (t : Int) (u : User) (db : Db) :
    (creationTask name ch t u).run db =
      match db.addChallenge ch t u.id with
      | (.error e, db) => (.crash e, db)
      | (.ok id, db) =>
        (optionsReply id "creationOptions" (do
          let o ← creationBuilder.build
            (some { name := name, id := u.handle, displayName := name }) (some ch)
          jsonify true o.toObj), db) := by
  rcases addChallenge_cases db ch t u.id with h | ⟨-, h⟩ <;>
    simp only [creationTask, Task.run, h]

theorem task_run (app : App) (e : Event) (db : Db) : (task app e).run db = step app e db := by
  cases e with
  | registrationRequest name hd ch t =>
    cases name with
    | none => rfl
    | some name =>
      simp only [task, registrationRequestTask, Task.run, step, registrationRequest, findOrAddUser]
      cases db.userNamed name with
      | some u => exact creationTask_run name ch t u db
      | none =>
        simp only [Task.run]
        rcases addUser_cases db name hd with h | ⟨-, h⟩ <;> simp only [h, Task.run]
        exact creationTask_run name ch t _ _
  | authenticationRequest name ch t =>
    cases name with
    | none => rfl
    | some name =>
      simp only [task, authenticationRequestTask, Task.run, step, authenticationRequest]
      cases db.userNamed name with
      | none => rfl
      | some u =>
        simp only [Task.run]
        rcases addChallenge_cases db ch t u.id with h | ⟨-, h⟩ <;> simp only [h, Task.run]
  | registrationResponse f t =>
    simp only [task, readTask_run, step, registrationResponse]
    cases readResponse app true f t db with
    | error r => rfl
    | ok x => simp only [handlerTask_run, run_attestation]
  | authenticationResponse f t =>
    simp only [task, readTask_run, step, authenticationResponse]
    cases readResponse app false f t db with
    | error r => rfl
    | ok x => simp only [handlerTask_run, run_assertion]

/-! ## What a request relies on -/

/-- A row without its counter. -/
def CredentialRow.fixed (c : CredentialRow) : CredentialRow := { c with count := none }

/-- Rows are added only, and of a row only the counter changes. -/
structure Grows (db db' : Db) : Prop where
  users : db.users <+: db'.users
  challenges : db.challenges <+: db'.challenges
  credentials : db.credentials.map CredentialRow.fixed <+: db'.credentials.map CredentialRow.fixed

theorem Grows.refl (db : Db) : Grows db db := ⟨List.prefix_refl _, List.prefix_refl _, List.prefix_refl _⟩

theorem Grows.trans {a b c : Db} (h : Grows a b) (h' : Grows b c) : Grows a c :=
  ⟨h.users.trans h'.users, h.challenges.trans h'.challenges, h.credentials.trans h'.credentials⟩

theorem Grows.user {db db' : Db} (h : Grows db db') {u : User} (hu : u ∈ db.users) : u ∈ db'.users :=
  h.users.subset hu

theorem Grows.challenge {db db' : Db} (h : Grows db db') {c : Challenge} (hc : c ∈ db.challenges) :
    c ∈ db'.challenges :=
  h.challenges.subset hc

/-- There is a row with this id, key and user. -/
def HasRow (db : Db) (id key : Bytes) (userId : Nat) : Prop :=
  ∃ c ∈ db.credentials, c.id = id ∧ c.key = key ∧ c.userId = userId

theorem hasRow_iff {db : Db} {id key : Bytes} {n : Nat} :
    HasRow db id key n ↔ ⟨id, none, key, n⟩ ∈ db.credentials.map CredentialRow.fixed := by
  rw [List.mem_map]
  constructor
  · rintro ⟨c, h, rfl, rfl, rfl⟩
    exact ⟨c, h, rfl⟩
  · rintro ⟨c, h, e⟩
    cases e
    exact ⟨c, h, rfl, rfl, rfl⟩

theorem Grows.row {db db' : Db} (h : Grows db db') {id key : Bytes} {n : Nat}
    (hr : HasRow db id key n) : HasRow db' id key n :=
  hasRow_iff.mpr (h.credentials.subset (hasRow_iff.mp hr))

theorem Keyed.empty : Keyed {} where
  userIds := by simp
  names := .nil
  handles := .nil
  challengeIds := by simp
  requests := .nil
  credentialIds := .nil

theorem Keyed.userId_unique {db : Db} (h : Keyed db) {u v : User} (hu : u ∈ db.users)
    (hv : v ∈ db.users) (he : u.id = v.id) : u = v := by
  obtain ⟨i, hi⟩ := List.mem_iff_getElem?.mp hu
  obtain ⟨j, hj⟩ := List.mem_iff_getElem?.mp hv
  have h1 := h.userIds i u hi
  have h2 := h.userIds j v hj
  have : i = j := by omega
  subst this
  rw [hi] at hj
  exact Option.some.inj hj

theorem addCredential_cases (db : Db) (row : CredentialRow) :
    db.addCredential row = (.error integrityError, db) ∨
    (∀ c ∈ db.credentials, c.id ≠ row.id) ∧
    db.addCredential row = (.ok (), { db with credentials := db.credentials ++ [row] }) := by
  unfold Db.addCredential
  split
  · exact Or.inl rfl
  · rename_i hn
    refine Or.inr ⟨fun c hc => ?_, rfl⟩
    simp only [List.any_eq_true, beq_iff_eq, not_exists, not_and] at hn
    exact hn c hc

theorem fixed_setCount (id : Bytes) (n : Int) (c : CredentialRow) :
    (setCount id n c).fixed = c.fixed := by
  unfold setCount
  split <;> rfl

theorem setCount_grows (db : Db) (id : Bytes) (n : Int) : Grows db (db.setCount id n) := by
  refine ⟨List.prefix_refl _, List.prefix_refl _, ?_⟩
  show _ <+: (db.credentials.map (setCount id n)).map CredentialRow.fixed
  rw [List.map_map, show CredentialRow.fixed ∘ setCount id n = CredentialRow.fixed from
    funext (fixed_setCount id n)]
  exact List.prefix_refl _

theorem Task.step_grows (t : Task) (db : Db) : Grows db (t.step db).2 := by
  cases t with
  | addUser name h k =>
    simp only [Task.step]
    rcases addUser_cases db name h with e | ⟨-, e⟩ <;> rw [e]
    · exact Grows.refl _
    · exact ⟨List.prefix_append _ _, List.prefix_refl _, List.prefix_refl _⟩
  | addChallenge ch t n k =>
    simp only [Task.step]
    rcases addChallenge_cases db ch t n with e | ⟨-, e⟩ <;> rw [e]
    · exact Grows.refl _
    · exact ⟨List.prefix_refl _, List.prefix_append _ _, List.prefix_refl _⟩
  | addCredential row k =>
    simp only [Task.step]
    rcases addCredential_cases db row with e | ⟨-, e⟩ <;> rw [e]
    · exact Grows.refl _
    · refine ⟨List.prefix_refl _, List.prefix_refl _, ?_⟩
      simp
  | setCount id n k => exact setCount_grows db id n
  | _ => exact Grows.refl _

theorem Task.step_keyed (t : Task) {db : Db} (h : Keyed db) : Keyed (t.step db).2 := by
  cases t with
  | addUser name hd k =>
    simp only [Task.step]
    rcases addUser_cases db name hd with e | ⟨hf, e⟩ <;> rw [e]
    · exact h
    · refine { h with userIds := fun i u hu => ?_, names := ?_, handles := ?_ }
      · rcases getElem?_snoc hu with hu | ⟨rfl, rfl⟩
        · exact h.userIds i u hu
        · rfl
      · exact pairwise_snoc h.names fun u hu => (hf u hu).1
      · exact pairwise_snoc h.handles fun u hu => (hf u hu).2
  | addChallenge ch t n k =>
    simp only [Task.step]
    rcases addChallenge_cases db ch t n with e | ⟨hf, e⟩ <;> rw [e]
    · exact h
    · refine { h with challengeIds := fun i c hc => ?_, requests := ?_ }
      · rcases getElem?_snoc hc with hc | ⟨rfl, rfl⟩
        · exact h.challengeIds i c hc
        · rfl
      · exact pairwise_snoc h.requests hf
  | addCredential row k =>
    simp only [Task.step]
    rcases addCredential_cases db row with e | ⟨hf, e⟩ <;> rw [e]
    · exact h
    · exact { h with credentialIds := pairwise_snoc h.credentialIds hf }
  | setCount id n k =>
    refine { h with credentialIds := ?_ }
    refine List.Pairwise.map _ (fun a b hab => ?_) h.credentialIds
    rw [(setCount_keeps id n a).1, (setCount_keeps id n b).1]
    exact hab
  | _ => exact h

/-! ## What a request guarantees -/

/-- The request `e` adds a credential for a valid response. -/
def Adds (app : App) (e : Event) (db : Db) (row : CredentialRow) : Prop :=
  ∃ f now n c name ch u o raw acd k, e = .registrationResponse f now ∧ Submits app f n c name ∧
    ch ∈ db.challenges ∧ ch.id = n ∧ now - ch.timestamp ≤ 60000 ∧ u ∈ db.users ∧
    u.username = name ∧ AttestationOk app.env (attestationArgs c ch u) o raw ∧
    o.authData.attested = some acd ∧ acd.credentialPublicKey = some k ∧
    coseKey app.env k = .ok row.key ∧ row = ⟨c.rawId, none, row.key, u.id⟩

/-- The request `e` sets a counter for a valid response. -/
def Sets (app : App) (e : Event) (db : Db) (id : Bytes) (m : Int) : Prop :=
  ∃ f now n c name ch u rowKey count key user rp ad, e = .authenticationResponse f now ∧
    Submits app f n c name ∧ ch ∈ db.challenges ∧ ch.id = n ∧ now - ch.timestamp ≤ 60000 ∧
    u ∈ db.users ∧ u.username = name ∧ HasRow db c.rawId rowKey u.id ∧
    parseCoseKeyBytes app.env rowKey = .ok key ∧
    AssertionOk app.env (assertionArgs c ch u) ⟨key, count, u.entity, none⟩ user rp ad ∧
    id = c.rawId ∧ m = ad.signCount

/-- The request `e` is for the challenge `ch`. -/
def Asks (e : Event) (db : Db) (ch : Bytes) (t : Int) (userId : Nat) : Prop :=
  ∃ u ∈ db.users, u.id = userId ∧
    ((∃ h, e = .registrationRequest (some u.username) h ch t) ∨
      e = .authenticationRequest (some u.username) ch t)

/-- `r` tells the number of a challenge. -/
def Tells (r : Reply) (n : Nat) : Prop :=
  ∃ key v, r = .json (.dict [(.str "challengeID", .int n), (.str key, v)])

/-- The request was served: what it asked for was committed. -/
def Served (app : App) (e : Event) (db : Db) (r : Reply) : Prop :=
  (r = success ∧ ∃ row, Adds app e db row ∧ HasRow db row.id row.key row.userId) ∨
  (r = success ∧ ∃ id m, Sets app e db id m) ∨
  ∃ n ch t userId, Tells r n ∧ Asks e db ch t userId ∧ ⟨n, ch, t, userId⟩ ∈ db.challenges

/-- The request will be refused, or be served by one commit that it guarantees to be
for a valid response, from a database that has at least the rows of `db`, if the others
add rows and change counters only. -/
def Safe (app : App) (e : Event) : Task → Db → Prop
  | .done r, _ => r ≠ success ∧ ∀ v, r ≠ .json v
  | .userNamed name k, db => ∀ db', Grows db db' → Keyed db' →
      Safe app e (k (db'.userNamed name)) db'
  | .userOfHandle h k, db => ∀ db', Grows db db' → Keyed db' →
      Safe app e (k (db'.userOfHandle h)) db'
  | .userOfId n k, db => ∀ db', Grows db db' → Keyed db' → Safe app e (k (db'.userOfId n)) db'
  | .credential id k, db => ∀ db', Grows db db' → Keyed db' → Safe app e (k (db'.credential id)) db'
  | .credentialsOf n k, db => ∀ db', Grows db db' → Keyed db' →
      Safe app e (k (db'.credentials.filter fun c => c.userId == n)) db'
  | .challenge n k, db => ∀ db', Grows db db' → Keyed db' → Safe app e (k (db'.challenge n)) db'
  | .addUser name h k, db => (∃ ch t, e = .registrationRequest (some name) h ch t) ∧
      ∀ db', Grows db db' → Keyed db' →
        Safe app e (k (db'.addUser name h).1) (db'.addUser name h).2
  | .addChallenge ch t n k, db => ∀ db', Grows db db' → Keyed db' → Asks e db' ch t n ∧
      (∀ i, ∃ r, k (.ok i) = .done r ∧ Tells r i) ∧ ∀ x, Safe app e (k (.error x)) db'
  | .addCredential row k, db => ∀ db', Grows db db' → Keyed db' → Adds app e db' row ∧
      k (.ok ()) = .done success ∧ ∀ x, Safe app e (k (.error x)) db'
  | .setCount id m k, db => ∀ db', Grows db db' → Keyed db' → Sets app e db' id m ∧
      k = .done success

theorem Adds.mono {app : App} {e : Event} {db db' : Db} {row : CredentialRow} (g : Grows db db')
    (h : Adds app e db row) : Adds app e db' row := by
  obtain ⟨f, now, n, c, name, ch, u, o, raw, acd, k, h1, h2, h3, h4, h5, h6, h7⟩ := h
  exact ⟨f, now, n, c, name, ch, u, o, raw, acd, k, h1, h2, g.challenge h3, h4, h5, g.user h6, h7⟩

theorem Sets.mono {app : App} {e : Event} {db db' : Db} {id : Bytes} {m : Int} (g : Grows db db')
    (h : Sets app e db id m) : Sets app e db' id m := by
  obtain ⟨f, now, n, c, name, ch, u, rk, count, key, user, rp, ad, h1, h2, h3, h4, h5, h6, h7, h8,
    h9⟩ := h
  exact ⟨f, now, n, c, name, ch, u, rk, count, key, user, rp, ad, h1, h2, g.challenge h3, h4, h5,
    g.user h6, h7, g.row h8, h9⟩

theorem Served.mono {app : App} {e : Event} {db db' : Db} {r : Reply} (g : Grows db db')
    (h : Served app e db r) : Served app e db' r := by
  rcases h with ⟨hr, row, h1, h2⟩ | ⟨hr, id, m, h⟩ | ⟨n, ch, t, i, h1, ⟨u, h2, h3⟩, h4⟩
  · exact Or.inl ⟨hr, row, h1.mono g, g.row h2⟩
  · exact Or.inr (Or.inl ⟨hr, id, m, h.mono g⟩)
  · exact Or.inr (Or.inr ⟨n, ch, t, i, h1, ⟨u, g.user h2, h3⟩, g.challenge h4⟩)

theorem Safe.mono {app : App} {e : Event} {db db' : Db} {t : Task} (g : Grows db db')
    (h : Safe app e t db) : Safe app e t db' := by
  cases t with
  | done r => exact h
  | addUser => exact ⟨h.1, fun d g' => h.2 d (g.trans g')⟩
  | _ => exact fun d g' => h d (g.trans g')

theorem conclude_json {m : String} {r : Py Unit} (v : PyVal) : conclude m r ≠ .json v := by
  cases r with
  | ok u => simp [conclude, success]
  | error e =>
    simp only [conclude]
    split <;> simp

theorem conclude_error {m : String} {e : Exc} : conclude m (finalise (.error e)) ≠ success := by
  rw [Ne, conclude_success, finalise_ok_iff]
  simp

theorem safe_conclude {app : App} {e : Event} {m : String} {r : Py Unit} {db : Db}
    (h : r ≠ .ok ()) : Safe app e (.done (conclude m r)) db :=
  ⟨by rw [Ne, conclude_success]; exact h, conclude_json⟩

theorem finalise_error {x : Exc} : finalise (.error x : Py Unit) ≠ .ok () := by
  rw [Ne, finalise_ok_iff]
  simp

theorem creationTask_safe {app : App} {name : String} {hd ch : Bytes} {t : Int} {u : User} {db : Db}
    (hu : u ∈ db.users) (hn : u.username = name) :
    Safe app (.registrationRequest (some name) hd ch t) (creationTask name ch t u) db := by
  intro db' g k
  refine ⟨⟨u, g.user hu, rfl, Or.inl ⟨hd, by rw [hn]⟩⟩, fun i => ?_, fun x => ?_⟩
  · obtain ⟨v, hv, -⟩ := creation_reply i { name := name, id := u.handle, displayName := name } ch
    exact ⟨_, rfl, _, v, hv⟩
  · exact ⟨by simp [success], by simp⟩

theorem readTask_safe {app : App} {e : Event} {att : Bool} {f : Form} {now : Int}
    {k : Credential → Challenge → User → Task} (db : Db)
    (h : ∀ n c name ch u db', Submits app f n c name → isAttestation c.response = att →
      ch ∈ db'.challenges → ch.id = n → now - ch.timestamp ≤ 60000 → u ∈ db'.users →
      u.username = name → Safe app e (k c ch u) db') :
    Safe app e (readTask app att f now k) db := by
  unfold readTask
  split
  · split <;> exact ⟨by simp [success], by simp⟩
  · rename_i cid c name hp
    split
    · exact ⟨by simp [success], by simp⟩
    rename_i ha
    intro db1 g1 k1
    cases hc : db1.challenge (app.rowId cid) with
    | none => exact ⟨by simp [success], by simp⟩
    | some ch =>
      obtain ⟨hc1, hc2⟩ := challenge_some hc
      intro db2 g2 k2
      cases hu : db2.userNamed name with
      | none => exact ⟨by simp [success], by simp⟩
      | some u =>
        obtain ⟨hu1, hu2⟩ := userNamed_some hu
        simp only
        split
        · exact ⟨by simp [success], by simp⟩
        · rename_i ht
          obtain ⟨h1, h2, text, d, h3, h4, h5⟩ := parseForm_ok_iff.mp hp
          refine h ch.id c name ch u db2 ⟨cid, text, d, h1, hc2, h3, h4, h5, h2⟩ (by simpa using ha)
            (g2.challenge hc1) rfl ?_ hu1 hu2
          have : timeout = 60000 := rfl
          omega

theorem Keyed.handle_unique {db : Db} (h : Keyed db) {u v : User} (hu : u ∈ db.users)
    (hv : v ∈ db.users) (he : u.handle = v.handle) : u = v :=
  pairwise_unique (f := User.handle) h.handles hu hv he

theorem attestation_safe {app : App} {f : Form} {now : Int} {m : String} {n : Nat} {c : Credential}
    {name : String} {ch : Challenge} {u : User} {db : Db} (hs : Submits app f n c name)
    (hc : ch ∈ db.challenges) (hn : ch.id = n) (ht : now - ch.timestamp ≤ 60000)
    (hu : u ∈ db.users) (hname : u.username = name) :
    Safe app (.registrationResponse f now)
      (handlerTask app.env m (attestationProg app.env (attestationArgs c ch u))) db := by
  unfold attestationProg
  cases ha : attestationChecks app.env (attestationArgs c ch u) with
  | error e => exact safe_conclude finalise_error
  | ok r =>
    obtain ⟨-, ⟨raw, h1⟩, -, h2, -, h3, -, -⟩ := attestationChecks_ok_iff.mp ha
    have fails : ∀ (w : Py (Option String)) (db' : Db), w ≠ .ok none →
        Safe app (.registrationResponse f now)
          (handlerTask app.env m (.done (finalise (checkWrite w)))) db' := by
      intro w db' hw
      refine safe_conclude ?_
      rw [Ne, finalise_ok_iff, checkWrite_ok_iff]
      exact hw
    simp only [handlerTask]
    cases h4 : r.att.authData.attested with
    | none => exact fails _ _ (by simp)
    | some acd =>
      intro db1 g1 k1
      cases h5 : db1.userOfHandle r.user.id with
      | none => exact fails _ _ (by simp)
      | some v =>
        obtain ⟨h6, h7⟩ := userOfHandle_some h5
        rw [h3] at h7
        obtain rfl : v = u := k1.handle_unique h6 (g1.user hu) h7
        simp only
        cases h8 : acd.credentialPublicKey with
        | none => exact fails _ _ (by simp [raise])
        | some k =>
          simp only
          cases h9 : coseKey app.env k with
          | error e => exact fails _ _ (by simp)
          | ok key =>
            simp only
            intro db2 g2 k2
            refine ⟨⟨f, now, n, c, name, ch, v, r.att, raw, acd, k, rfl, hs,
              g2.challenge (g1.challenge hc), hn, ht, g2.user h6, hname, h1, h4, h8, h9, ?_⟩, rfl,
              fun x => fails _ _ (by simp)⟩
            rw [h2]
            rfl

theorem assertion_safe {app : App} {f : Form} {now : Int} {m : String} {n : Nat} {c : Credential}
    {name : String} {ch : Challenge} {u : User} {db : Db} (hs : Submits app f n c name)
    (hc : ch ∈ db.challenges) (hn : ch.id = n) (ht : now - ch.timestamp ≤ 60000)
    (hu : u ∈ db.users) (hname : u.username = name) :
    Safe app (.authenticationResponse f now)
      (handlerTask app.env m (assertionProg app.env (assertionArgs c ch u))) db := by
  unfold assertionProg
  cases ha : assertionPre app.env (assertionArgs c ch u) with
  | error e => exact safe_conclude finalise_error
  | ok allowed =>
    obtain ⟨ha1, -⟩ := assertionPre_ok_iff.mp ha
    have reads : ∀ (w : Py (Option CredentialData)) (db' : Db), (∀ cd, w ≠ .ok (some cd)) →
        Safe app (.authenticationResponse f now) (handlerTask app.env m
          (assertionProgFrom app.env (assertionArgs c ch u) allowed w)) db' := by
      intro w db' hw
      unfold assertionProgFrom
      cases h : checkRead w with
      | error e => exact safe_conclude finalise_error
      | ok cd => exact absurd (checkRead_ok_iff.mp h) (hw cd)
    simp only [handlerTask]
    intro db1 g1 k1
    cases h1 : db1.credential (assertionArgs c ch u).credential.rawId with
    | none => exact reads _ _ (by simp)
    | some row =>
      obtain ⟨h2, h3⟩ := credential_some h1
      simp only
      cases h4 : parseCoseKeyBytes app.env row.key with
      | error e => exact reads _ _ (by simp)
      | ok key =>
        intro db2 g2 k2
        cases h5 : db2.userOfId row.userId with
        | none => exact reads _ _ (by simp)
        | some v =>
          obtain ⟨h6, h7⟩ := userOfId_some h5
          simp only [assertionProgFrom, checkRead]
          cases h8 : assertionChecks app.env (assertionArgs c ch u) allowed
            ⟨key, row.count, v.entity, none⟩ with
          | error e => exact safe_conclude finalise_error
          | ok r =>
            obtain ⟨h9, h10⟩ := (assertionChecks_ok_iff ha1).mp h8
            have huv : v = u := by
              obtain ⟨_, _, _, _, -, hu', -⟩ := h10
              generalize r.user = ru at hu'
              cases hu' with
              | given _ _ he _ => exact k2.handle_unique h6 (g2.user (g1.user hu)) he.symm
            subst huv
            simp only [handlerTask]
            intro db3 g3 k3
            have hr : r.credential.rawId = c.rawId := by rw [h9]; rfl
            cases h11 : db3.credential r.credential.rawId with
            | none =>
              refine safe_conclude ?_
              rw [Ne, finalise_ok_iff, checkWrite_ok_iff]
              simp
            | some row' =>
              intro db4 g4 k4
              have hrow : HasRow db1 c.rawId row.key v.id := ⟨row, h2, h3, rfl, h7.symm⟩
              have g : Grows db1 db4 := g2.trans (g3.trans g4)
              exact ⟨⟨f, now, n, c, name, ch, v, row.key, row.count, key, r.user, r.rp, r.authData, rfl,
                hs, g.challenge (g1.challenge hc), hn, ht, g.user (g1.user hu), hname, g.row hrow, h4,
                h10, hr, rfl⟩, rfl⟩

theorem task_safe (app : App) (e : Event) (db : Db) : Safe app e (task app e) db := by
  cases e with
  | registrationRequest name hd ch t =>
    cases name with
    | none => exact ⟨by simp [success, badRequest], by simp [badRequest]⟩
    | some name =>
      intro db1 g1 k1
      cases hu : db1.userNamed name with
      | some u =>
        obtain ⟨h1, h2⟩ := userNamed_some hu
        exact creationTask_safe h1 h2
      | none =>
        refine ⟨⟨ch, t, rfl⟩, fun db2 g2 k2 => ?_⟩
        rcases addUser_cases db2 name hd with e | ⟨-, e⟩ <;> rw [e]
        · exact ⟨by simp [success], by simp⟩
        · exact creationTask_safe (by simp) rfl
  | authenticationRequest name ch t =>
    cases name with
    | none => exact ⟨by simp [success, badRequest], by simp [badRequest]⟩
    | some name =>
      intro db1 g1 k1
      cases hu : db1.userNamed name with
      | none => exact ⟨by simp [success], by simp⟩
      | some u =>
        obtain ⟨h1, h2⟩ := userNamed_some hu
        intro db2 g2 k2 db3 g3 k3
        refine ⟨⟨u, g3.user (g2.user h1), rfl, Or.inr (by rw [h2])⟩, fun i => ?_, fun x => ?_⟩
        · obtain ⟨v, hv, -⟩ := request_reply i (db2.credentials.filter fun c => c.userId == u.id) ch
          exact ⟨_, rfl, _, v, hv⟩
        · exact ⟨by simp [success], by simp⟩
  | registrationResponse f t =>
    exact readTask_safe db fun n c name ch u db' h1 _ h2 h3 h4 h5 h6 =>
      attestation_safe h1 h2 h3 h4 h5 h6
  | authenticationResponse f t =>
    exact readTask_safe db fun n c name ch u db' h1 _ h2 h3 h4 h5 h6 =>
      assertion_safe h1 h2 h3 h4 h5 h6

/-- What one statement of a request does: nothing to the tables, or one commit that the
request was for. -/
theorem Safe.step {app : App} {e : Event} {db : Db} {t : Task} (key : Keyed db)
    (h : Safe app e t db) :
    (Safe app e (t.step db).1 (t.step db).2 ∧ (t.step db).2.challenges = db.challenges ∧
      (t.step db).2.credentials = db.credentials) ∨
    (∃ ch time n r, (t.step db).1 = .done r ∧ Tells r (db.challenges.length + 1) ∧
      Asks e db ch time n ∧ (∀ c ∈ db.challenges, c.request ≠ ch) ∧
      (t.step db).2 = { db with
        challenges := db.challenges ++ [⟨db.challenges.length + 1, ch, time, n⟩] }) ∨
    (∃ row, (t.step db).1 = .done success ∧ Adds app e db row ∧
      (∀ c ∈ db.credentials, c.id ≠ row.id) ∧
      (t.step db).2 = { db with credentials := db.credentials ++ [row] }) ∨
    ∃ id m, (t.step db).1 = .done success ∧ Sets app e db id m ∧ (t.step db).2 = db.setCount id m := by
  cases t with
  | done r => exact Or.inl ⟨h, rfl, rfl⟩
  | addUser name hd k =>
    have := h.2 db (Grows.refl _) key
    simp only [Task.step]
    rcases addUser_cases db name hd with e | ⟨-, e⟩ <;> rw [e] at this ⊢ <;>
      exact Or.inl ⟨this, rfl, rfl⟩
  | addChallenge ch time n k =>
    obtain ⟨h1, h2, h3⟩ := h db (Grows.refl _) key
    simp only [Task.step]
    rcases addChallenge_cases db ch time n with e | ⟨hf, e⟩ <;> rw [e]
    · exact Or.inl ⟨h3 _, rfl, rfl⟩
    · obtain ⟨r, h4, h5⟩ := h2 (db.challenges.length + 1)
      exact Or.inr (Or.inl ⟨ch, time, n, r, h4, h5, h1, hf, rfl⟩)
  | addCredential row k =>
    obtain ⟨h1, h2, h3⟩ := h db (Grows.refl _) key
    simp only [Task.step]
    rcases addCredential_cases db row with e | ⟨hf, e⟩ <;> rw [e]
    · exact Or.inl ⟨h3 _, rfl, rfl⟩
    · exact Or.inr (Or.inr (Or.inl ⟨row, h2, h1, hf, rfl⟩))
  | setCount id m k =>
    obtain ⟨h1, h2⟩ := h db (Grows.refl _) key
    exact Or.inr (Or.inr (Or.inr ⟨id, m, h2, h1, rfl⟩))
  | _ => exact Or.inl ⟨h db (Grows.refl _) key, rfl, rfl⟩

/-- The users that a request adds. -/
theorem Safe.step_users {app : App} {e : Event} {db : Db} {t : Task} (h : Safe app e t db) {u : User}
    (hu : u ∈ (t.step db).2.users) :
    u ∈ db.users ∨ ∃ ch time, e = .registrationRequest (some u.username) u.handle ch time := by
  cases t with
  | addUser name hd k =>
    simp only [Task.step] at hu
    rcases addUser_cases db name hd with e' | ⟨-, e'⟩ <;> rw [e'] at hu
    · exact Or.inl hu
    · rcases List.mem_append.mp hu with hu | hu
      · exact Or.inl hu
      · rw [List.mem_singleton] at hu
        subst hu
        exact Or.inr h.1
  | addChallenge ch time n k =>
    simp only [Task.step] at hu
    rcases addChallenge_cases db ch time n with e' | ⟨-, e'⟩ <;> rw [e'] at hu <;> exact Or.inl hu
  | addCredential row k =>
    simp only [Task.step] at hu
    rcases addCredential_cases db row with e' | ⟨-, e'⟩ <;> rw [e'] at hu <;> exact Or.inl hu
  | _ => exact Or.inl hu

/-! ## The server -/

section
variable {ι : Type} [DecidableEq ι] {app : App} {reqs : ι → Event}

theorem serveAll_snoc (app : App) (reqs : ι → Event) (sched : List ι) (i : ι) :
    serveAll app reqs (sched ++ [i]) = (serveAll app reqs sched).step i := by
  simp [serveAll, List.foldl_append]

theorem answer_some {sched : List ι} {i : ι} {r : Reply} :
    answer app reqs sched i = some r ↔ (serveAll app reqs sched).tasks i = .done r := by
  unfold answer
  split
  · rename_i h
    rw [h]
    simp
  · rename_i h
    simp only [reduceCtorEq, false_iff]
    exact fun h' => h r h'

theorem answer_snoc {sched : List ι} {i j : ι} {r : Reply} (h : answer app reqs sched i = some r) :
    answer app reqs (sched ++ [j]) i = some r := by
  rw [answer_some] at h ⊢
  rw [serveAll_snoc]
  simp only [Server.step]
  split
  · rename_i he
    subst he
    rw [h]
    rfl
  · exact h

theorem answer_mono {pre sched : List ι} {i : ι} {r : Reply} (hp : pre <+: sched)
    (h : answer app reqs pre i = some r) : answer app reqs sched i = some r := by
  obtain ⟨post, rfl⟩ := hp
  induction post using List.reverseRecOn with
  | nil => simpa using h
  | append_singleton post j ih =>
    rw [← List.append_assoc]
    exact answer_snoc ih

theorem answer_other {sched : List ι} {i j : ι} (h : j ≠ i) :
    answer app reqs (sched ++ [i]) j = answer app reqs sched j := by
  unfold answer
  rw [serveAll_snoc]
  simp only [Server.step, if_neg h]

/-- The moment at which a request is answered. -/
theorem answered_at {sched : List ι} {i : ι} {r : Reply} (h : answer app reqs sched i = some r) :
    answer app reqs [] i = some r ∨
    ∃ p, p ++ [i] <+: sched ∧ answer app reqs p i = none ∧ answer app reqs (p ++ [i]) i = some r := by
  induction sched using List.reverseRecOn with
  | nil => exact Or.inl h
  | append_singleton sched j ih =>
    cases hb : answer app reqs sched i with
    | some r' =>
      have := answer_snoc (j := j) hb
      rw [h] at this
      cases this
      rcases ih hb with h' | ⟨p, h1, h2⟩
      · exact Or.inl h'
      · exact Or.inr ⟨p, h1.trans (List.prefix_append _ _), h2⟩
    | none =>
      by_cases hij : i = j
      · subst hij
        exact Or.inr ⟨sched, List.prefix_refl _, hb, h⟩
      · rw [answer_other hij, hb] at h
        cases h

/-- The request is in progress or refused, or has been served. -/
def Fine (app : App) (e : Event) (t : Task) (db : Db) : Prop :=
  Safe app e t db ∨ ∃ r, t = .done r ∧ Served app e db r

/-- The rows of the tables have their origin in the requests. -/
structure ServerInv (app : App) (reqs : ι → Event) (sched : List ι) (s : Server ι) : Prop where
  keyed : Keyed s.db
  fine : ∀ i, Fine app (reqs i) (s.tasks i) s.db
  challenges : ∀ c ∈ s.db.challenges, ∃ pre j u, pre <+: sched ∧ u ∈ s.db.users ∧ u.id = c.userId ∧
    IssuedAt app reqs pre j c.id c.request c.timestamp u.username
  credentials : ∀ c ∈ s.db.credentials, ∃ pre j u k, pre <+: sched ∧ u ∈ s.db.users ∧
    u.id = c.userId ∧ RegisteredAt app reqs pre j c.id u.username k ∧ coseKey app.env k = .ok c.key
  counts : ∀ c ∈ s.db.credentials, ∀ m, c.count = some m → ∃ pre j, pre <+: sched ∧
    AuthenticatedAt app reqs pre j c.id m

theorem ServerInv.step {sched : List ι} (h : ServerInv app reqs sched (serveAll app reqs sched))
    (i : ι) : ServerInv app reqs (sched ++ [i]) (serveAll app reqs (sched ++ [i])) := by
  have hdb : (serveAll app reqs (sched ++ [i])).db =
      (((serveAll app reqs sched).tasks i).step (serveAll app reqs sched).db).2 := by
    rw [serveAll_snoc]
    rfl
  have htask : (serveAll app reqs (sched ++ [i])).tasks i =
      (((serveAll app reqs sched).tasks i).step (serveAll app reqs sched).db).1 := by
    rw [serveAll_snoc]
    simp only [Server.step, if_true]
  have g : Grows (serveAll app reqs sched).db (serveAll app reqs (sched ++ [i])).db := by
    rw [hdb]
    exact Task.step_grows _ _
  have hp : ∀ pre : List ι, pre <+: sched → pre <+: sched ++ [i] :=
    fun pre h => h.trans (List.prefix_append _ _)
  have keyed : Keyed (serveAll app reqs (sched ++ [i])).db := by
    rw [hdb]
    exact Task.step_keyed _ h.keyed
  have fine : Fine app (reqs i) ((serveAll app reqs (sched ++ [i])).tasks i)
      (serveAll app reqs (sched ++ [i])).db → ∀ j, Fine app (reqs j)
        ((serveAll app reqs (sched ++ [i])).tasks j) (serveAll app reqs (sched ++ [i])).db := by
    intro hi j
    by_cases hj : j = i
    · rw [hj]
      exact hi
    · have e : (serveAll app reqs (sched ++ [i])).tasks j = (serveAll app reqs sched).tasks j := by
        rw [serveAll_snoc]
        simp only [Server.step, if_neg hj]
      rw [e]
      rcases h.fine j with hj | ⟨r, hj, hr⟩
      · exact Or.inl (hj.mono g)
      · exact Or.inr ⟨r, hj, hr.mono g⟩
  -- the rows there were
  have challenges : ∀ c ∈ (serveAll app reqs sched).db.challenges, ∃ pre j u, pre <+: sched ++ [i] ∧
      u ∈ (serveAll app reqs (sched ++ [i])).db.users ∧ u.id = c.userId ∧
      IssuedAt app reqs pre j c.id c.request c.timestamp u.username := by
    intro c hc
    obtain ⟨pre, j, u, h1, h2, h3⟩ := h.challenges c hc
    exact ⟨pre, j, u, hp _ h1, g.user h2, h3⟩
  have credentials : ∀ c ∈ (serveAll app reqs sched).db.credentials, ∃ pre j u k,
      pre <+: sched ++ [i] ∧ u ∈ (serveAll app reqs (sched ++ [i])).db.users ∧ u.id = c.userId ∧
      RegisteredAt app reqs pre j c.id u.username k ∧ coseKey app.env k = .ok c.key := by
    intro c hc
    obtain ⟨pre, j, u, k, h1, h2, h3⟩ := h.credentials c hc
    exact ⟨pre, j, u, k, hp _ h1, g.user h2, h3⟩
  have counts : ∀ c ∈ (serveAll app reqs sched).db.credentials, ∀ m, c.count = some m → ∃ pre j,
      pre <+: sched ++ [i] ∧ AuthenticatedAt app reqs pre j c.id m := by
    intro c hc m hm
    obtain ⟨pre, j, h1, h2⟩ := h.counts c hc m hm
    exact ⟨pre, j, hp _ h1, h2⟩
  rcases h.fine i with hsafe | ⟨r, hr, hserved⟩
  · rcases hsafe.step h.keyed with ⟨h1, h2, h3⟩ | ⟨ch, time, n, r, h1, h2, h3, h4, h5⟩ |
      ⟨row, h1, h2, h3, h4⟩ | ⟨id, m, h1, h2, h3⟩
    · rw [← hdb, ← htask] at h1
      rw [← hdb] at h2 h3
      exact ⟨keyed, fine (Or.inl h1), h2 ▸ challenges, h3 ▸ credentials, h3 ▸ counts⟩
    · rw [← htask] at h1
      rw [← hdb] at h5
      obtain ⟨u, hu1, hu2, hu3⟩ := h3
      refine ⟨keyed, fine (Or.inr ⟨r, h1, Or.inr (Or.inr ⟨_, ch, time, n, h2, ⟨u, g.user hu1, hu2,
        hu3⟩, by rw [h5]; simp⟩)⟩), fun c hc => ?_, ?_, ?_⟩
      · rw [h5] at hc
        rcases List.mem_append.mp hc with hc | hc
        · exact challenges c hc
        · rw [List.mem_singleton] at hc
          subst hc
          obtain ⟨key, v, hk⟩ := h2
          refine ⟨_, i, u, List.prefix_refl _, g.user hu1, hu2, ⟨key, v, ?_⟩, hu3⟩
          rw [answer_some, h1, hk]
      · rw [h5] at credentials ⊢; exact credentials
      · rw [h5]; exact counts
    · rw [← htask] at h1
      rw [← hdb] at h4
      refine ⟨keyed, fine (Or.inr ⟨_, h1, Or.inl ⟨rfl, row, h2.mono g, ⟨row, by rw [h4]; simp, rfl,
        rfl, rfl⟩⟩⟩), ?_, fun r hr => ?_, fun r hr m hm => ?_⟩
      · rw [h4] at challenges ⊢; exact challenges
      · rw [h4] at hr
        rcases List.mem_append.mp hr with hr | hr
        · exact credentials r hr
        · rw [List.mem_singleton] at hr
          subst hr
          obtain ⟨f, now, n, c, name, ch, u, o, raw, acd, k, e1, e2, -, -, -, e3, e4,
            ⟨cdj, ob, e5, -, e6, -⟩, e7, e8, e9, e10⟩ := h2
          have i1 := congrArg CredentialRow.id e10
          have i2 := congrArg CredentialRow.userId e10
          refine ⟨_, i, u, k, List.prefix_refl _, g.user e3, i2.symm,
            ⟨f, now, n, c, cdj, ob, o, raw, acd, e1, ?_, e4 ▸ e2, i1.symm, e5, e6, e7, e8⟩, e9⟩
          rw [answer_some, h1]
      · rw [h4] at hr
        rcases List.mem_append.mp hr with hr | hr
        · exact counts r hr m hm
        · rw [List.mem_singleton] at hr
          subst hr
          obtain ⟨f, now, n, c, name, ch, u, o, raw, acd, k, -, -, -, -, -, -, -, -, -, -, -, e10⟩ := h2
          rw [e10] at hm
          cases hm
    · rw [← htask] at h1
      rw [← hdb] at h3
      refine ⟨keyed, fine (Or.inr ⟨_, h1, Or.inr (Or.inl ⟨rfl, id, m, h2.mono g⟩)⟩), ?_,
        fun r hr => ?_, fun r hr l hl => ?_⟩
      · rw [h3] at challenges ⊢; exact challenges
      · rw [h3] at hr
        obtain ⟨r', hr', rfl⟩ := List.mem_map.mp hr
        obtain ⟨e1, e2, e3⟩ := setCount_keeps id m r'
        rw [e1, e2, e3]
        exact credentials r' hr'
      · rw [h3] at hr
        obtain ⟨r', hr', rfl⟩ := List.mem_map.mp hr
        unfold Flask.setCount at hl ⊢
        split at hl
        · rename_i hid
          obtain rfl : r'.id = id := by simpa using hid
          cases hl
          rw [if_pos hid]
          obtain ⟨f, now, n, c, name, ch, u, rk, count, key, user, rp, ad, e1, e2, -, -, -, -, -, -, -,
            e3, e4, e5⟩ := h2
          refine ⟨_, i, List.prefix_refl _, f, now, n, c, name, ad.signCount, e1, ?_, e2, e4.symm, e5,
            assertionOk_counter e3⟩
          rw [answer_some, h1]
        · rename_i hid
          rw [if_neg hid]
          exact counts r' hr' l hl
  · rw [hr] at hdb htask
    have hdb : _ = (serveAll app reqs sched).db := hdb
    rw [← hdb] at hserved
    refine ⟨keyed, fine (Or.inr ⟨r, htask, hserved⟩), ?_, ?_, ?_⟩
    · rw [hdb] at challenges ⊢; exact challenges
    · rw [hdb] at credentials ⊢; exact credentials
    · rw [hdb]; exact counts

/-- Every order of the statements keeps the invariant. -/
theorem server_inv (app : App) (reqs : ι → Event) (sched : List ι) :
    ServerInv app reqs sched (serveAll app reqs sched) := by
  induction sched using List.reverseRecOn with
  | nil => exact ⟨Keyed.empty, fun i => Or.inl (task_safe app (reqs i) {}),
      (fun c hc => by cases hc), (fun c hc => by cases hc), (fun c hc => by cases hc)⟩
  | append_singleton sched i ih => exact ih.step i

/-- A request that has executed nothing. -/
theorem task_start {sched : List ι} {i : ι} (h : i ∉ sched) :
    (serveAll app reqs sched).tasks i = task app (reqs i) := by
  induction sched using List.reverseRecOn with
  | nil => rfl
  | append_singleton sched j ih =>
    rw [List.mem_append, List.mem_singleton, not_or] at h
    rw [serveAll_snoc]
    simp only [Server.step, if_neg h.2]
    exact ih h.1

/-- The first statement of a request changes nothing. -/
theorem task_first (app : App) (e : Event) (db : Db) : ((task app e).step db).2 = db := by
  have read : ∀ att f t k, ((readTask app att f t k).step db).2 = db := by
    intro att f t k
    unfold readTask
    split
    · split <;> rfl
    · split <;> rfl
  cases e with
  | registrationRequest name hd ch t => cases name <;> rfl
  | authenticationRequest name ch t => cases name <;> rfl
  | registrationResponse f t => exact read _ _ _ _
  | authenticationResponse f t => exact read _ _ _ _

/-- Rows stay. -/
theorem serveAll_grows {pre sched : List ι} (h : pre <+: sched) :
    Grows (serveAll app reqs pre).db (serveAll app reqs sched).db := by
  obtain ⟨post, rfl⟩ := h
  induction post using List.reverseRecOn with
  | nil =>
    rw [List.append_nil]
    exact Grows.refl _
  | append_singleton post j ih =>
    rw [← List.append_assoc, serveAll_snoc]
    exact ih.trans (Task.step_grows _ _)

/-- Users come from registration requests, which have executed two statements. -/
theorem users_origin (app : App) (reqs : ι → Event) (sched : List ι) {u : User}
    (hu : u ∈ (serveAll app reqs sched).db.users) :
    ∃ j ch t, reqs j = .registrationRequest (some u.username) u.handle ch t ∧ 2 ≤ sched.count j := by
  induction sched using List.reverseRecOn with
  | nil => cases hu
  | append_singleton sched i ih =>
    have old : u ∈ (serveAll app reqs sched).db.users → ∃ j ch t,
        reqs j = .registrationRequest (some u.username) u.handle ch t ∧
          2 ≤ (sched ++ [i]).count j := by
      intro hu
      obtain ⟨j, ch, t, h1, h2⟩ := ih hu
      exact ⟨j, ch, t, h1, by rw [List.count_append]; omega⟩
    rw [serveAll_snoc] at hu
    by_cases hi : i ∈ sched
    · rcases (server_inv app reqs sched).fine i with hs | ⟨r, hs, -⟩
      · rcases hs.step_users hu with hu | ⟨ch, t, e⟩
        · exact old hu
        · refine ⟨i, ch, t, e, ?_⟩
          have := List.count_pos_iff.mpr hi
          rw [List.count_append, List.count_singleton_self]
          omega
      · simp only [Server.step, hs, Task.step] at hu
        exact old hu
    · simp only [Server.step, task_start hi, task_first] at hu
      exact old hu

/-- A positive answer says that the request was served. -/
theorem served {sched : List ι} {i : ι} {r : Reply} (h : answer app reqs sched i = some r)
    (hr : r = success ∨ ∃ v, r = .json v) :
    Served app (reqs i) (serveAll app reqs sched).db r := by
  have := (server_inv app reqs sched).fine i
  rw [answer_some.mp h] at this
  rcases this with ⟨h1, h2⟩ | ⟨r', h1, h2⟩
  · rcases hr with hr | ⟨v, hr⟩
    · exact absurd hr h1
    · exact absurd hr (h2 v)
  · cases h1
    exact h2

/-- No request is served before its first statement. -/
theorem not_served_nil {i : ι} {r : Reply} (hr : r = success ∨ ∃ v, r = .json v) :
    answer app reqs [] i ≠ some r := by
  intro h
  rcases served h hr with ⟨-, _, ⟨_, _, _, _, _, _, _, _, _, _, _, -, -, h, -⟩, -⟩ |
    ⟨-, _, _, ⟨_, _, _, _, _, _, _, _, _, _, _, _, _, -, -, h, -⟩⟩ | ⟨_, _, _, _, -, -, h⟩ <;> cases h

/-- The moment at which a request is served. -/
theorem served_at {sched : List ι} {i : ι} {r : Reply} (h : answer app reqs sched i = some r)
    (hr : r = success ∨ ∃ v, r = .json v) :
    ∃ p, p ++ [i] <+: sched ∧ answer app reqs p i = none ∧ answer app reqs (p ++ [i]) i = some r := by
  rcases answered_at h with h | h
  · exact absurd h (not_served_nil hr)
  · exact h

/-- What happened by the moment a request is answered, by another request, happened
before. -/
theorem before_of {sched p pre : List ι} {i j : ι} (hp : p ++ [i] <+: sched)
    (hn : answer app reqs p i = none) (hpre : pre <+: p ++ [i]) (hij : j ≠ i) :
    ∃ pre', Before app reqs sched i pre' ∧ answer app reqs pre' j = answer app reqs pre j := by
  rcases List.prefix_concat_iff.mp (by simpa using hpre) with rfl | h
  · exact ⟨p, ⟨(List.prefix_append _ _).trans hp, hn⟩, (answer_other hij).symm⟩
  · refine ⟨pre, ⟨h.trans ((List.prefix_append _ _).trans hp), ?_⟩, rfl⟩
    cases hb : answer app reqs pre i with
    | none => rfl
    | some r =>
      rw [answer_mono h hb] at hn
      cases hn

end

end WebAuthn.Flask
