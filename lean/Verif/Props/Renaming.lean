import Verif.Spec.Renaming
import Verif.Props.FlaskOutcome

/-!
# User handles contain nothing of the names (C103)
-/

namespace WebAuthn.Flask

open WebAuthn WebAuthn.Spec

variable {π : String → String} {db : Db}

/-- The same row, with the other name. -/
def renamedUser (π : String → String) (u : User) : User := { u with username := π u.username }

theorem renamed_users : (renamedTables π db).users = db.users.map (renamedUser π) := rfl

theorem userNamed_renamed (hπ : Function.Injective π) (db : Db) (name : String) :
    (renamedTables π db).userNamed (π name) = (db.userNamed name).map (renamedUser π) := by
  unfold Db.userNamed
  rw [renamed_users, List.find?_map]
  congr 2
  funext u
  simp [renamedUser, hπ.eq_iff]

theorem userOfHandle_renamed (db : Db) (h : Bytes) :
    (renamedTables π db).userOfHandle h = (db.userOfHandle h).map (renamedUser π) := by
  unfold Db.userOfHandle
  rw [renamed_users, List.find?_map]
  rfl

theorem userOfId_renamed (db : Db) (n : Nat) :
    (renamedTables π db).userOfId n = (db.userOfId n).map (renamedUser π) := by
  unfold Db.userOfId
  rw [renamed_users, List.find?_map]
  rfl

theorem addUser_renamed (hπ : Function.Injective π) (db : Db) (name : String) (h : Bytes) :
    (renamedTables π db).addUser (π name) h =
      (((db.addUser name h).1).map (renamedUser π), renamedTables π (db.addUser name h).2) := by
  unfold Db.addUser
  rw [renamed_users, List.any_map]
  have : ((fun u : User => u.username == π name || u.handle == h) ∘ renamedUser π) =
      fun u : User => u.username == name || u.handle == h := by
    funext u
    have : (π u.username == π name) = (u.username == name) := by
      rw [Bool.eq_iff_iff, beq_iff_eq, beq_iff_eq, hπ.eq_iff]
    simp only [Function.comp, renamedUser, this]
  rw [this]
  split
  · rfl
  · simp [renamedTables, renamedUser, Except.map]

theorem findOrAddUser_renamed (hπ : Function.Injective π) (db : Db) (name : String) (h : Bytes) :
    findOrAddUser (renamedTables π db) (π name) h =
      (((findOrAddUser db name h).1).map (renamedUser π), renamedTables π (findOrAddUser db name h).2) := by
  unfold findOrAddUser
  rw [userNamed_renamed hπ]
  cases db.userNamed name with
  | none => exact addUser_renamed hπ db name h
  | some u => rfl

theorem addChallenge_renamed (db : Db) (ch : Bytes) (t : Int) (n : Nat) :
    (renamedTables π db).addChallenge ch t n =
      ((db.addChallenge ch t n).1, renamedTables π (db.addChallenge ch t n).2) := by
  unfold Db.addChallenge
  show (if db.challenges.any _ then _ else _) = _
  split <;> rfl

/-! ## Requests -/

theorem registrationRequest_renamed (hπ : Function.Injective π) (name : Option String) (h ch : Bytes)
    (t : Int) (db : Db) :
    (registrationRequest (name.map π) h ch t (renamedTables π db)).2 =
        renamedTables π (registrationRequest name h ch t db).2 ∧
      RenamedReply π (registrationRequest name h ch t db).1
        (registrationRequest (name.map π) h ch t (renamedTables π db)).1 := by
  cases name with
  | none => exact ⟨rfl, .text _ _⟩
  | some name =>
    simp only [registrationRequest, Option.map_some, findOrAddUser_renamed hπ]
    rcases findOrAddUser db name h with ⟨e | u, db1⟩
    · exact ⟨rfl, .crash _⟩
    · simp only [Except.map, addChallenge_renamed]
      show _ ∧ _
      have hid : (renamedUser π u).id = u.id := rfl
      have hh : (renamedUser π u).handle = u.handle := rfl
      rw [hid, hh]
      rcases db1.addChallenge ch t u.id with ⟨e | n, db2⟩
      · exact ⟨rfl, .crash _⟩
      · refine ⟨rfl, ?_⟩
        obtain ⟨v, h1, h2⟩ := creation_reply n { name := name, id := u.handle, displayName := name } ch
        obtain ⟨v', h1', h2'⟩ := creation_reply n
          { name := π name, id := u.handle, displayName := π name } ch
        dsimp only at h1 h1' ⊢
        rw [h1, h1']
        exact .registration _ _ _ _ _ _ h2 h2'

theorem authenticationRequest_renamed (hπ : Function.Injective π) (name : Option String) (ch : Bytes)
    (t : Int) (db : Db) :
    (authenticationRequest (name.map π) ch t (renamedTables π db)).2 =
        renamedTables π (authenticationRequest name ch t db).2 ∧
      RenamedReply π (authenticationRequest name ch t db).1
        (authenticationRequest (name.map π) ch t (renamedTables π db)).1 := by
  cases name with
  | none => exact ⟨rfl, .text _ _⟩
  | some name =>
    simp only [authenticationRequest, Option.map_some, userNamed_renamed hπ]
    cases db.userNamed name with
    | none => exact ⟨rfl, .text _ _⟩
    | some u =>
      simp only [Option.map_some, addChallenge_renamed]
      have hid : (renamedUser π u).id = u.id := rfl
      have hc : (renamedTables π db).credentials = db.credentials := rfl
      rw [hid, hc]
      rcases db.addChallenge ch t u.id with ⟨e | n, db2⟩
      · exact ⟨rfl, .crash _⟩
      · refine ⟨rfl, ?_⟩
        dsimp only
        obtain ⟨v, h1, -⟩ := request_reply n (db.credentials.filter fun c => c.userId == u.id) ch
        rw [h1]
        exact .login _ _

/-! ## Responses -/

theorem bind_mapped {α β γ : Type} {m : Py α} {f : α → Py γ} {g : α → Py β} {φ : β → γ}
    (h : ∀ a, f a = (g a).map φ) : (m >>= f) = (m >>= g).map φ := by
  cases m with
  | error e => rfl
  | ok a => exact h a

theorem bind_mapped' {α α' β γ : Type} {m : Py α} {ψ : α → α'} {f : α' → Py γ} {g : α → Py β}
    {φ : β → γ} (h : ∀ a, f (ψ a) = (g a).map φ) : (m.map ψ >>= f) = (m >>= g).map φ := by
  cases m with
  | error e => rfl
  | ok a => exact h a

theorem parseForm_renamed (env : Env) (f : Form) :
    parseForm env { f with username := f.username.map π } =
      (parseForm env f).map fun x => (x.1, x.2.1, π x.2.2) := by
  unfold parseForm
  refine bind_mapped fun _ => bind_mapped fun _ => bind_mapped fun _ => bind_mapped fun _ => ?_
  cases f.username <;> rfl

theorem readResponse_renamed (hπ : Function.Injective π) (app : App) (att : Bool) (f : Form) (t : Int)
    (db : Db) :
    readResponse app att { f with username := f.username.map π } t (renamedTables π db) =
      (readResponse app att f t db).map fun x => (x.1, x.2.1, renamedUser π x.2.2) := by
  unfold readResponse
  rw [parseForm_renamed]
  cases parseForm app.env f with
  | error e =>
    simp only [Except.map]
    split <;> rfl
  | ok x =>
    obtain ⟨cid, c, name⟩ := x
    simp only [Except.map]
    split
    · rfl
    · have : (renamedTables π db).challenge (app.rowId cid) = db.challenge (app.rowId cid) := rfl
      rw [this]
      cases db.challenge (app.rowId cid) with
      | none => rfl
      | some ch =>
        simp only [userNamed_renamed hπ]
        cases db.userNamed name with
        | none => rfl
        | some u =>
          simp only [Option.map_some]
          split <;> rfl

/-- The checks of a registration do not look at the name. -/
theorem attestationChecks_renamed (env : Env) (c : Credential) (ch : Challenge) (u : User) :
    attestationChecks env (attestationArgs c ch (renamedUser π u)) =
      (attestationChecks env (attestationArgs c ch u)).map
        fun r => { r with user := (renamedUser π u).entity } := by
  unfold attestationChecks
  refine bind_mapped fun _ => bind_mapped fun _ => bind_mapped fun _ => bind_mapped fun x => ?_
  obtain ⟨o, raw⟩ := x
  refine bind_mapped fun _ => bind_mapped fun _ => bind_mapped fun y => ?_
  obtain ⟨ty, path⟩ := y
  rfl

theorem registerAttestation_renamed (env : Env) (r : AttestationRecord) (e : UserEntity)
    (he : e.id = r.user.id) (db : Db) :
    registerAttestation env { r with user := e } (renamedTables π db) =
      ((registerAttestation env r db).1, renamedTables π (registerAttestation env r db).2) := by
  unfold registerAttestation
  dsimp only
  rw [he, userOfHandle_renamed]
  cases r.att.authData.attested with
  | none => rfl
  | some acd =>
    cases db.userOfHandle r.user.id with
    | none => rfl
    | some u =>
      dsimp only [Option.map_some]
      cases acd.credentialPublicKey with
      | none => rfl
      | some k =>
        dsimp only
        cases coseKey env k with
        | error e => rfl
        | ok key =>
          have : (renamedTables π db).credentials = db.credentials := rfl
          dsimp only
          rw [this]
          split <;> rfl

theorem attestationChecks_user {env : Env} {a : AttestationArgs} {r : AttestationRecord}
    (h : attestationChecks env a = .ok r) : r.user = a.user := by
  simp only [attestationChecks, bind_ok_iff, pure_eq_ok, Except.ok.injEq, Prod.exists] at h
  obtain ⟨_, -, _, -, _, -, _, _, -, _, -, _, -, _, _, -, rfl⟩ := h
  rfl

theorem handleAttestation_renamed (env : Env) (c : Credential) (ch : Challenge) (u : User) (db : Db) :
    handleAttestation env (registrar env) (attestationArgs c ch (renamedUser π u)) (renamedTables π db) =
      ((handleAttestation env (registrar env) (attestationArgs c ch u) db).1,
        renamedTables π (handleAttestation env (registrar env) (attestationArgs c ch u) db).2) := by
  unfold handleAttestation
  rw [attestationChecks_renamed]
  cases h : attestationChecks env (attestationArgs c ch u) with
  | error e => rfl
  | ok r =>
    have hr : r.user = u.entity := attestationChecks_user h
    simp only [Except.map, registrar]
    rw [registerAttestation_renamed env r (renamedUser π u).entity (by rw [hr]; rfl)]

theorem credentialData_renamed (env : Env) (id : Bytes) (db : Db) :
    credentialData env id (renamedTables π db) =
      (credentialData env id db).map (Option.map fun cd =>
        { cd with user := { cd.user with name := π cd.user.name, displayName := π cd.user.displayName } }) := by
  unfold credentialData
  have : (renamedTables π db).credential id = db.credential id := rfl
  rw [this]
  cases db.credential id with
  | none => rfl
  | some c =>
    refine bind_mapped fun key => ?_
    rw [userOfId_renamed]
    cases db.userOfId c.userId <;> rfl

/-- The checks of a login do not look at the names. -/
theorem assertionChecks_renamed (env : Env) (c : Credential) (ch : Challenge) (u : User)
    (allowed : List Origin) (cd : CredentialData) (w : UserEntity) (hw : w.id = cd.user.id) :
    assertionChecks env (assertionArgs c ch (renamedUser π u)) allowed { cd with user := w } =
      (assertionChecks env (assertionArgs c ch u) allowed cd).map
        fun r => { r with user := (renamedUser π u).entity } := by
  unfold assertionChecks
  dsimp only [assertionArgs]
  have hu : resolveUser (some (renamedUser π u).entity) w c.response =
      (resolveUser (some u.entity) cd.user c.response).map fun _ => (renamedUser π u).entity := by
    unfold resolveUser effectiveUser
    rw [hw]
    show (require (cd.user.id == u.handle) .userId >>= fun _ => pure (renamedUser π u).entity) >>= _ =
      Except.map _ ((require (cd.user.id == u.handle) .userId >>= fun _ => pure u.entity) >>= _)
    cases require (cd.user.id == u.handle) .userId with
    | error e => rfl
    | ok _ =>
      have : ∀ (x : Unit) (v : UserEntity) (k : UserEntity → Py UserEntity),
          ((Except.ok x : Py Unit) >>= fun _ => (pure v : Py UserEntity)) >>= k = k v := fun _ _ _ => rfl
      rw [this, this]
      exact bind_mapped fun h => bind_mapped fun _ => rfl
  rw [hu]
  refine bind_mapped' fun _ => bind_mapped fun _ => bind_mapped fun _ => bind_mapped fun _ =>
    bind_mapped fun _ => bind_mapped fun _ => bind_mapped fun _ => bind_mapped fun _ =>
    bind_mapped fun _ => rfl

theorem handleAssertion_renamed (env : Env) (c : Credential) (ch : Challenge) (u : User) (db : Db) :
    handleAssertion env (registrar env) (assertionArgs c ch (renamedUser π u)) (renamedTables π db) =
      ((handleAssertion env (registrar env) (assertionArgs c ch u) db).1,
        renamedTables π (handleAssertion env (registrar env) (assertionArgs c ch u) db).2) := by
  unfold handleAssertion
  have hp : assertionPre env (assertionArgs c ch (renamedUser π u)) =
    assertionPre env (assertionArgs c ch u) := rfl
  rw [hp]
  cases assertionPre env (assertionArgs c ch u) with
  | error e => rfl
  | ok allowed =>
    dsimp only [registrar, assertionArgs]
    rw [credentialData_renamed]
    cases credentialData env c.rawId db with
    | error e =>
      cases he : e.isException <;> simp [Except.map, checkRead, he, raise]
    | ok o =>
      cases o with
      | none => rfl
      | some cd =>
        simp only [Except.map, checkRead, Option.map_some]
        have := assertionChecks_renamed (π := π) env c ch u allowed cd
          { cd.user with name := π cd.user.name, displayName := π cd.user.displayName } rfl
        dsimp only [assertionArgs] at this
        rw [this]
        generalize assertionChecks env _ allowed cd = z
        cases z with
        | error e => rfl
        | ok r =>
          simp only [Except.map, registerAssertion]
          have : (renamedTables π db).credential r.credential.rawId = db.credential r.credential.rawId := rfl
          rw [this]
          cases db.credential r.credential.rawId <;> rfl

/-! ## Histories -/

theorem conclude_renamed (m : String) (r : Py Unit) : RenamedReply π (conclude m r) (conclude m r) := by
  cases r with
  | ok _ => exact .text _ _
  | error e =>
    simp only [conclude]
    split
    · exact .text _ _
    · exact .crash _

theorem readResponse_reply {app : App} {att : Bool} {f : Form} {t : Int} {r : Reply}
    (h : readResponse app att f t db = .error r) : RenamedReply π r r := by
  unfold readResponse at h
  split at h
  · split at h <;> cases h
    · exact .text _ _
    · exact .crash _
  · split at h
    · cases h
      exact .text _ _
    · split at h
      · cases h
        exact .text _ _
      · split at h
        · cases h
          exact .text _ _
        · split at h <;> cases h
          exact .text _ _

theorem step_renamed (hπ : Function.Injective π) (app : App) (e : Event) (db : Db) :
    (step app (renamed π e) (renamedTables π db)).2 = renamedTables π (step app e db).2 ∧
      RenamedReply π (step app e db).1 (step app (renamed π e) (renamedTables π db)).1 := by
  cases e with
  | registrationRequest n h c t => exact registrationRequest_renamed hπ n h c t db
  | authenticationRequest n c t => exact authenticationRequest_renamed hπ n c t db
  | registrationResponse f t =>
    simp only [step, renamed, registrationResponse, readResponse_renamed hπ]
    cases hr : readResponse app true f t db with
    | error r => exact ⟨rfl, readResponse_reply hr⟩
    | ok x =>
      obtain ⟨c, ch, u⟩ := x
      simp only [Except.map, handleAttestation_renamed]
      exact ⟨trivial, conclude_renamed _ _⟩
  | authenticationResponse f t =>
    simp only [step, renamed, authenticationResponse, readResponse_renamed hπ]
    cases hr : readResponse app false f t db with
    | error r => exact ⟨rfl, readResponse_reply hr⟩
    | ok x =>
      obtain ⟨c, ch, u⟩ := x
      simp only [Except.map, handleAssertion_renamed]
      exact ⟨trivial, conclude_renamed _ _⟩

/-- **C103** With other names, of which no two are alike, the application has the same tables and
sends the same replies, but for the names. -/
theorem C103_names_only (app : App) : NamesOnly (run app) (reply app) := by
  intro π hπ evs
  have main : run app (evs.map (renamed π)) = renamedTables π (run app evs) := by
    induction evs using List.reverseRecOn with
    | nil => rfl
    | append_singleton evs e ih =>
      rw [List.map_append, List.map_singleton, run_snoc, run_snoc, ih]
      exact (step_renamed hπ app e _).1
  refine ⟨main, fun e => ?_⟩
  unfold reply
  rw [main]
  exact (step_renamed hπ app e _).2

/-- **C103** The handles, and all else in the tables but the names, do not depend on the names. -/
theorem C103_handles (app : App) (hπ : Function.Injective π) (evs : List Event) :
    (run app (evs.map (renamed π))).users.map User.handle = (run app evs).users.map User.handle ∧
    (run app (evs.map (renamed π))).credentials = (run app evs).credentials ∧
    (run app (evs.map (renamed π))).challenges = (run app evs).challenges := by
  rw [(C103_names_only app π hπ evs).1]
  exact ⟨by simp [renamedTables], rfl, rfl⟩

/-- **C103** What is accepted does not depend on the names. -/
theorem C103_accepted (app : App) (hπ : Function.Injective π) (evs : List Event) (e : Event) :
    reply app (evs.map (renamed π)) (renamed π e) = success ↔ reply app evs e = success := by
  have h := (C103_names_only app π hπ evs).2 e
  generalize reply app evs e = r at h
  generalize reply app (evs.map (renamed π)) (renamed π e) = r' at h
  cases h with
  | text | crash => exact Iff.rfl
  | login => exact ⟨nofun, nofun⟩
  | registration => exact ⟨nofun, nofun⟩

/-- **C103** A handle is what was drawn when the name was first asked for. -/
theorem C103_drawn (app : App) (evs : List Event) {u : User} (hu : u ∈ (run app evs).users) :
    ∃ ch t, .registrationRequest (some u.username) u.handle ch t ∈ evs := by
  induction evs using List.reverseRecOn with
  | nil => cases hu
  | append_singleton evs e ih =>
    rw [run_snoc] at hu
    have keep : ∀ {db : Db}, db.users = (run app evs).users → u ∈ db.users →
        ∃ ch t, .registrationRequest (some u.username) u.handle ch t ∈ evs ++ [e] := by
      intro db h1 h2
      obtain ⟨ch, t, h⟩ := ih (h1 ▸ h2)
      exact ⟨ch, t, by simp [h]⟩
    have new : ∀ {name : String} {h ch : Bytes} {t : Int} {v : User} {users : List User},
        UserFor (run app evs) name h v users → u ∈ users →
        e = .registrationRequest (some name) h ch t →
        ∃ ch t, .registrationRequest (some u.username) u.handle ch t ∈ evs ++ [e] := by
      intro name h ch t v users h1 h2 h3
      cases h1 with
      | known => exact keep rfl h2
      | new =>
        rcases List.mem_append.mp h2 with h2 | h2
        · exact keep rfl h2
        · rw [List.mem_singleton] at h2
          subst h2
          exact ⟨ch, t, by simp [h3]⟩
    have hout := C64_outcome app (C64_consistent_history app evs) e
    revert hu hout
    generalize (step app e (run app evs)).2 = db
    generalize (step app e (run app evs)).1 = r
    intro hu hout
    cases hout
    case registrationChallengeTaken h1 _ _ => exact new h1 hu rfl
    case registrationIssued h1 _ _ => exact new h1 hu rfl
    all_goals exact keep rfl hu

end WebAuthn.Flask
