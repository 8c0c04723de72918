import Verif.Spec.Order
import Verif.Props.Isolation

/-!
# Requests whose order does not matter (C112)
-/

namespace WebAuthn.Flask

open WebAuthn WebAuthn.Spec WebAuthn.Props

/-! ## What a response changes -/

inductive Change where
  | nothing
  | add (row : CredentialRow)
  | set (id : Bytes) (n : Int)

def Change.on : Change → List CredentialRow → List CredentialRow
  | .nothing, l => l
  | .add row, l => l ++ [row]
  | .set id n, l => l.map (setCount id n)

def Db.change (db : Db) (g : Change) : Db := { db with credentials := g.on db.credentials }

theorem any_find {α : Type} (p : α → Bool) (l : List α) : l.any p = (l.find? p).isSome := by
  induction l with
  | nil => rfl
  | cons a l ih =>
    rw [List.any_cons, List.find?_cons, ih]
    cases p a <;> simp

variable {app : App} {db db1 : Db}

theorem attestation_frame {env : Env} {r : AttestationRecord}
    (h1 : db1.userOfHandle r.user.id = db.userOfHandle r.user.id)
    (h2 : db1.credential r.credential.rawId = db.credential r.credential.rawId) :
    ∃ p g, registerAttestation env r db = (p, db.change g) ∧ registerAttestation env r db1 = (p, db1.change g) ∧
      (g = .nothing ∨ ∃ row u, g = .add row ∧ row.id = r.credential.rawId ∧
        db.userOfHandle r.user.id = some u ∧ row.userId = u.id) := by
  unfold registerAttestation
  rw [h1, any_find, any_find]
  have h2 : List.find? (fun c => c.id == r.credential.rawId) db1.credentials =
    List.find? (fun c => c.id == r.credential.rawId) db.credentials := h2
  rw [h2]
  cases r.att.authData.attested with
  | none => exact ⟨_, .nothing, rfl, rfl, Or.inl rfl⟩
  | some acd =>
    cases hu : db.userOfHandle r.user.id with
    | none => exact ⟨_, .nothing, rfl, rfl, Or.inl rfl⟩
    | some u =>
      simp only
      cases acd.credentialPublicKey with
      | none => exact ⟨_, .nothing, rfl, rfl, Or.inl rfl⟩
      | some cpk =>
        simp only
        cases coseKey env cpk with
        | error e => exact ⟨_, .nothing, rfl, rfl, Or.inl rfl⟩
        | ok key =>
          simp only
          cases List.find? (fun c => c.id == r.credential.rawId) db.credentials with
          | some c => exact ⟨_, .nothing, rfl, rfl, Or.inl rfl⟩
          | none => exact ⟨_, .add ⟨r.credential.rawId, none, key, u.id⟩, rfl, rfl, Or.inr ⟨_, u, rfl, rfl, rfl, rfl⟩⟩

theorem assertion_frame {r : AssertionRecord}
    (h2 : db1.credential r.credential.rawId = db.credential r.credential.rawId) :
    ∃ p g, registerAssertion r db = (p, db.change g) ∧ registerAssertion r db1 = (p, db1.change g) ∧
      (g = .nothing ∨ ∃ n, g = .set r.credential.rawId n) := by
  unfold registerAssertion
  rw [h2]
  cases db.credential r.credential.rawId with
  | none => exact ⟨_, .nothing, rfl, rfl, Or.inl rfl⟩
  | some c => exact ⟨_, .set _ _, rfl, rfl, Or.inr ⟨_, rfl⟩⟩

theorem credentialData_frame {env : Env} {id : Bytes} (h1 : db1.credential id = db.credential id)
    (h2 : ∀ c ∈ db.credentials, db1.userOfId c.userId = db.userOfId c.userId) :
    credentialData env id db1 = credentialData env id db := by
  unfold credentialData
  rw [h1]
  cases h : db.credential id with
  | none => rfl
  | some c =>
    simp only
    rw [h2 c (List.mem_of_find?_eq_some h)]

/-- The tables agree on what a response with the form looks up. -/
structure SameLookups (app : App) (f : Form) (db db1 : Db) : Prop where
  read : ∀ cid c name, parseForm app.env f = .ok (cid, c, name) →
    db1.challenge (app.rowId cid) = db.challenge (app.rowId cid) ∧ db1.userNamed name = db.userNamed name ∧
    db1.credential c.rawId = db.credential c.rawId
  handle : ∀ u ∈ db.users, db1.userOfHandle u.handle = db.userOfHandle u.handle
  owner : ∀ c ∈ db.credentials, db1.userOfId c.userId = db.userOfId c.userId

/-- What a response with the form may change. -/
def Touches (app : App) (f : Form) (db : Db) (g : Change) : Prop :=
  g = .nothing ∨ ∃ cid c name, parseForm app.env f = .ok (cid, c, name) ∧
    ((∃ row u, g = .add row ∧ row.id = c.rawId ∧ db.userNamed name = some u ∧ row.userId = u.id) ∨
      ∃ n, g = .set c.rawId n)

theorem SameLookups.readResponse {f : Form} (h : SameLookups app f db db1) (att : Bool) (t : Int) :
    readResponse app att f t db1 = readResponse app att f t db := by
  unfold Flask.readResponse
  cases hp : parseForm app.env f with
  | error e => rfl
  | ok x =>
    obtain ⟨cid, c, name⟩ := x
    obtain ⟨h1, h2, -⟩ := h.read cid c name hp
    simp only [h1, h2]

theorem response_frame {e : Event} {f : Form} (hf : e.form = some f) (h : SameLookups app f db db1) (k : Keyed db) :
    ∃ r g, step app e db = (r, db.change g) ∧ step app e db1 = (r, db1.change g) ∧ Touches app f db g := by
  have found : ∀ {att : Bool} {t : Int} {c : Credential} {ch : Challenge} {u : User},
      readResponse app att f t db = .ok (c, ch, u) → ∃ cid name, parseForm app.env f = .ok (cid, c, name) ∧
        db.userNamed name = some u := by
    intro att t c ch u hr
    obtain ⟨n, name, ⟨cid, text, d, h1, -, h3, h4, h5, h6⟩, -, -, h7, -⟩ := readResponse_ok_iff.mp hr
    exact ⟨cid, name, parseForm_ok_iff.mpr ⟨h1, h6, text, d, h3, h4, h5⟩, h7⟩
  cases e with
  | registrationRequest n hd ch t => cases hf
  | authenticationRequest n ch t => cases hf
  | registrationResponse f' t =>
    obtain rfl : f' = f := Option.some.inj hf
    show ∃ r g, registrationResponse app f' t db = _ ∧ registrationResponse app f' t db1 = _ ∧ _
    unfold registrationResponse
    rw [h.readResponse]
    cases hr : readResponse app true f' t db with
    | error r => exact ⟨r, .nothing, rfl, rfl, Or.inl rfl⟩
    | ok x =>
      obtain ⟨c, ch, u⟩ := x
      obtain ⟨cid, name, hp, hu⟩ := found hr
      obtain ⟨hu1, hu2⟩ := userNamed_some hu
      simp only
      unfold handleAttestation
      cases hc : attestationChecks app.env (attestationArgs c ch u) with
      | error e => exact ⟨_, .nothing, rfl, rfl, Or.inl rfl⟩
      | ok r =>
        obtain ⟨-, -, -, e1, -, e2, -⟩ := attestationChecks_ok_iff.mp hc
        have e1 : r.credential = c := e1
        have e2 : r.user = u.entity := e2
        obtain ⟨p, g, g1, g2, g3⟩ := attestation_frame (env := app.env) (db := db) (db1 := db1) (r := r)
          (by rw [e2]; exact h.handle u hu1) (by rw [e1]; exact (h.read _ _ _ hp).2.2)
        refine ⟨conclude "Could not handle credential attestation" (finalise (checkWrite p)), g, ?_, ?_, ?_⟩
        · simp only [registrar, g1]
        · simp only [registrar, g2]
        · rcases g3 with g3 | ⟨row, v, g3, g4, g5, g6⟩
          · exact Or.inl g3
          · refine Or.inr ⟨cid, c, name, hp, Or.inl ⟨row, u, g3, by rw [g4, e1], hu, ?_⟩⟩
            rw [e2, show u.entity.id = u.handle from rfl, k.find_handle hu1] at g5
            rw [g6, ← Option.some.inj g5]
  | authenticationResponse f' t =>
    obtain rfl : f' = f := Option.some.inj hf
    show ∃ r g, authenticationResponse app f' t db = _ ∧ authenticationResponse app f' t db1 = _ ∧ _
    unfold authenticationResponse
    rw [h.readResponse]
    cases hr : readResponse app false f' t db with
    | error r => exact ⟨r, .nothing, rfl, rfl, Or.inl rfl⟩
    | ok x =>
      obtain ⟨c, ch, u⟩ := x
      obtain ⟨cid, name, hp, hu⟩ := found hr
      simp only
      unfold handleAssertion
      cases hpre : assertionPre app.env (assertionArgs c ch u) with
      | error e => exact ⟨_, .nothing, rfl, rfl, Or.inl rfl⟩
      | ok allowed =>
        have hcd := credentialData_frame (env := app.env) (h.read _ _ _ hp).2.2 h.owner
        simp only [registrar, show (assertionArgs c ch u).credential.rawId = c.rawId from rfl, hcd]
        cases checkRead (credentialData app.env c.rawId db) with
        | error e => exact ⟨_, .nothing, rfl, rfl, Or.inl rfl⟩
        | ok cd =>
          simp only
          cases hc : assertionChecks app.env (assertionArgs c ch u) allowed cd with
          | error e => exact ⟨_, .nothing, rfl, rfl, Or.inl rfl⟩
          | ok r =>
            have e1 : r.credential = c := ((assertionChecks_ok_iff (assertionPre_ok_iff.mp hpre).1).mp hc).1
            obtain ⟨p, g, g1, g2, g3⟩ := assertion_frame (db := db) (db1 := db1) (r := r)
              (by rw [e1]; exact (h.read _ _ _ hp).2.2)
            refine ⟨conclude "Could not handle credential assertion" (finalise (checkWrite p)), g, ?_, ?_, ?_⟩
            · simp only [g1]
            · simp only [g2]
            · rcases g3 with g3 | ⟨n, g3⟩
              · exact Or.inl g3
              · exact Or.inr ⟨cid, c, name, hp, Or.inr ⟨n, by rw [g3, e1]⟩⟩

/-! ## Requests for a challenge -/

def Db.having (db : Db) (l : List CredentialRow) : Db := { db with credentials := l }

theorem addUser_having (l : List CredentialRow) (name : String) (hd : Bytes) :
    (db.having l).addUser name hd = ((db.addUser name hd).1, (db.addUser name hd).2.having l) := by
  by_cases h : (db.users.any fun u => u.username == name || u.handle == hd) = true <;>
    simp [Db.addUser, Db.having, h]

theorem addChallenge_having (l : List CredentialRow) (ch : Bytes) (t : Int) (n : Nat) :
    (db.having l).addChallenge ch t n = ((db.addChallenge ch t n).1, (db.addChallenge ch t n).2.having l) := by
  by_cases h : (db.challenges.any fun c => c.request == ch) = true <;> simp [Db.addChallenge, Db.having, h]

/-- A request for a challenge reads the ids of the credentials of the user only, and keeps the credentials. -/
theorem request_frame {e : Event} (hf : e.form = none) {l : List CredentialRow}
    (h : ∀ name u, e.name = some name → db.userNamed name = some u →
      (l.filter fun c => c.userId == u.id).map CredentialRow.id =
        (db.credentials.filter fun c => c.userId == u.id).map CredentialRow.id) :
    step app e (db.having l) = ((step app e db).1, (step app e db).2.having l) := by
  cases e with
  | registrationResponse f t => cases hf
  | authenticationResponse f t => cases hf
  | registrationRequest n hd ch t =>
    show registrationRequest n hd ch t _ = ((registrationRequest n hd ch t db).1, (registrationRequest n hd ch t db).2.having l)
    cases n with
    | none => rfl
    | some name =>
      have hfind : findOrAddUser (db.having l) name hd =
          ((findOrAddUser db name hd).1, (findOrAddUser db name hd).2.having l) := by
        unfold findOrAddUser
        rw [show (db.having l).userNamed name = db.userNamed name from rfl]
        cases db.userNamed name with
        | some u => rfl
        | none => exact addUser_having l name hd
      simp only [registrationRequest, hfind]
      rcases findOrAddUser db name hd with ⟨_ | u, d⟩
      · rfl
      · simp only [addChallenge_having]
        rcases d.addChallenge ch t u.id with ⟨_ | id, d'⟩ <;> rfl
  | authenticationRequest n ch t =>
    show authenticationRequest n ch t _ = ((authenticationRequest n ch t db).1, (authenticationRequest n ch t db).2.having l)
    cases n with
    | none => rfl
    | some name =>
      simp only [authenticationRequest, show (db.having l).userNamed name = db.userNamed name from rfl]
      cases hu : db.userNamed name with
      | none => rfl
      | some u =>
        simp only [addChallenge_having]
        have h := h name u rfl hu
        have hm : ∀ {α : Type} (k : Bytes → α), ((l.filter fun c => c.userId == u.id).map fun c => k c.id) =
            (db.credentials.filter fun c => c.userId == u.id).map fun c => k c.id := by
          intro α k
          have := congrArg (List.map k) h
          simpa only [List.map_map, Function.comp_def] using this
        rcases db.addChallenge ch t u.id with ⟨_ | id, d'⟩
        · rfl
        · exact congrArg (fun its => (optionsReply id "requestOptions" (do
            let o ← requestBuilder.build (some ch) (some { items := its })
            jsonify true o.toObj), d'.having l)) (hm fun i => ({ id := i } : FullDescriptor))

theorem request_shape {e : Event} (hf : e.form = none) : ∃ us cs,
    (step app e db).2 = ⟨db.users ++ us, db.credentials, db.challenges ++ cs⟩ ∧ ∀ u ∈ us, e.name = some u.username := by
  cases e with
  | registrationResponse f t => cases hf
  | authenticationResponse f t => cases hf
  | registrationRequest n hd ch t =>
    show ∃ us cs, (registrationRequest n hd ch t db).2 = _ ∧ _
    cases n with
    | none => exact ⟨[], [], by simp [registrationRequest], by simp⟩
    | some name =>
      rcases findOrAddUser_cases db name hd with ⟨u, -, -, h⟩ | h | ⟨-, h⟩
      · rcases addChallenge_cases db ch t u.id with ha | ⟨-, ha⟩ <;> simp only [registrationRequest, h, ha]
        · exact ⟨[], [], by simp only [List.append_nil], by simp⟩
        · exact ⟨[], _, by rw [List.append_nil], by simp⟩
      · simp only [registrationRequest, h]
        exact ⟨[], [], by simp, by simp⟩
      · simp only [registrationRequest, h]
        rcases addChallenge_cases { db with users := db.users ++ [⟨db.users.length + 1, name, hd⟩] } ch t
          (db.users.length + 1) with ha | ⟨-, ha⟩ <;> simp only [ha]
        · exact ⟨[_], [], by rw [List.append_nil], by simp [Event.name]⟩
        · exact ⟨_, _, rfl, by simp [Event.name]⟩
  | authenticationRequest n ch t =>
    show ∃ us cs, (authenticationRequest n ch t db).2 = _ ∧ _
    cases n with
    | none => exact ⟨[], [], by simp [authenticationRequest], by simp⟩
    | some name =>
      simp only [authenticationRequest]
      cases db.userNamed name with
      | none => exact ⟨[], [], by simp, by simp⟩
      | some u =>
        rcases addChallenge_cases db ch t u.id with ha | ⟨-, ha⟩ <;> simp only [ha]
        · exact ⟨[], [], by simp only [List.append_nil], by simp⟩
        · exact ⟨[], _, by rw [List.append_nil], by simp⟩

/-! ## Tables that differ in the order of the credentials of different users -/

structure Reordered (db db' : Db) : Prop where
  users : db'.users = db.users
  challenges : db'.challenges = db.challenges
  credentials : ∀ n : Nat, (db'.credentials.filter fun c => c.userId == n) = db.credentials.filter fun c => c.userId == n

theorem Reordered.mem {db db' : Db} (h : Reordered db db') (c : CredentialRow) : c ∈ db'.credentials ↔ c ∈ db.credentials := by
  have h := congrArg (c ∈ ·) (h.credentials c.userId)
  simpa using h

theorem Reordered.credential {db db' : Db} (h : Reordered db db') (k : Keyed db) (k' : Keyed db') (id : Bytes) :
    db'.credential id = db.credential id := by
  cases hc : db.credential id with
  | some c =>
    obtain ⟨h1, rfl⟩ := credential_some hc
    exact k'.find_credential ((h.mem c).mpr h1)
  | none =>
    cases hc' : db'.credential id with
    | none => rfl
    | some c =>
      obtain ⟨h1, rfl⟩ := credential_some hc'
      rw [k.find_credential ((h.mem c).mp h1)] at hc
      cases hc

theorem filter_set (n : Nat) (id : Bytes) (m : Int) (l : List CredentialRow) :
    ((l.map (setCount id m)).filter fun c => c.userId == n) = (l.filter fun c => c.userId == n).map (setCount id m) := by
  rw [List.filter_map]
  congr 1
  refine List.filter_congr fun c _ => ?_
  simp only [Function.comp_def, setCount]
  split <;> rfl

theorem Reordered.change {db db' : Db} (h : Reordered db db') (g : Change) : Reordered (db.change g) (db'.change g) := by
  refine ⟨h.users, h.challenges, fun n => ?_⟩
  cases g with
  | nothing => exact h.credentials n
  | add row =>
    show ((db'.credentials ++ [row]).filter fun c => c.userId == n) = (db.credentials ++ [row]).filter fun c => c.userId == n
    rw [List.filter_append, List.filter_append, h.credentials n]
  | set id m =>
    show ((db'.credentials.map (setCount id m)).filter fun c => c.userId == n) =
      (db.credentials.map (setCount id m)).filter fun c => c.userId == n
    rw [filter_set, filter_set, h.credentials n]

theorem Reordered.agree {db db' : Db} (h : Reordered db db') (k : Keyed db) (k' : Keyed db') (f : Form) : SameLookups app f db db' := by
  refine ⟨fun cid c name _ => ⟨?_, ?_, h.credential k k' _⟩, fun u _ => ?_, fun c _ => ?_⟩
  · cases app.rowId cid with
    | none => rfl
    | some n => simp only [Db.challenge, h.challenges]
  · simp only [Db.userNamed, h.users]
  · simp only [Db.userOfHandle, h.users]
  · simp only [Db.userOfId, h.users]

theorem Reordered.step {db db' : Db} (h : Reordered db db') (k : Keyed db) (k' : Keyed db') (e : Event) :
    (Flask.step app e db').1 = (Flask.step app e db).1 ∧ Reordered (Flask.step app e db).2 (Flask.step app e db').2 := by
  cases hf : e.form with
  | some f =>
    obtain ⟨r, g, h1, h2, -⟩ := response_frame hf (h.agree k k' f) k
    rw [h1, h2]
    exact ⟨rfl, h.change g⟩
  | none =>
    have he : db' = db.having db'.credentials := by
      obtain ⟨us, cs, chs⟩ := db'
      obtain ⟨rfl, rfl, -⟩ := h
      rfl
    have hs := request_frame (app := app) (db := db) hf (l := db'.credentials) fun name u _ _ => by rw [h.credentials u.id]
    rw [← he] at hs
    obtain ⟨us, cs, hd, -⟩ := request_shape (app := app) (db := db) hf
    rw [hs]
    refine ⟨rfl, rfl, rfl, fun n => ?_⟩
    rw [hd]
    exact h.credentials n

/-! ## Exchanging two requests -/

theorem find_set {id k : Bytes} (hne : id ≠ k) (m : Int) (l : List CredentialRow) :
    ((l.map (setCount id m)).find? fun c => c.id == k) = l.find? fun c => c.id == k := by
  induction l with
  | nil => rfl
  | cons c l ih =>
    rw [List.map_cons, List.find?_cons, List.find?_cons, ih]
    by_cases h : c.id = id
    · have h2 : (c.id == k) = false := by simpa [h] using hne
      have h3 : ((setCount id m c).id == k) = false := by
        simp only [setCount]
        split <;> simpa using h2
      rw [h2, h3]
    · simp [setCount, h]

/-- A response finds the same after a response of another user with another credential. -/
theorem agree_change {f f' : Form} {g : Change} (hg : Touches app f' db g)
    (hne : ∀ cid c name cid' c' name', parseForm app.env f = .ok (cid, c, name) →
      parseForm app.env f' = .ok (cid', c', name') → c.rawId ≠ c'.rawId) :
    SameLookups app f db (db.change g) := by
  refine ⟨fun cid c name hp => ⟨rfl, rfl, ?_⟩, fun _ _ => rfl, fun _ _ => rfl⟩
  rcases hg with rfl | ⟨cid', c', name', hp', ⟨row, u, rfl, hr, -, -⟩ | ⟨m, rfl⟩⟩
  · rfl
  · have h := hne _ _ _ _ _ _ hp hp'
    show (db.credentials ++ [row]).find? (fun x => x.id == c.rawId) = db.credentials.find? fun x => x.id == c.rawId
    have h2 : (row.id == c.rawId) = false := by rw [hr]; simpa using fun e => h e.symm
    rw [List.find?_append]
    simp [h2]
  · exact find_set (fun e => hne _ _ _ _ _ _ hp hp' e.symm) m _

/-- A response finds the same after a request of another user. -/
theorem agree_grown {f : Form} {us : List User} {cs : List Challenge} (k : Consistent db)
    (hn : ∀ u ∈ us, f.username ≠ some u.username)
    (hc : ∀ cid c name n, parseForm app.env f = .ok (cid, c, name) → app.rowId cid = some n → ∃ x ∈ db.challenges, x.id = n) :
    SameLookups app f db ⟨db.users ++ us, db.credentials, db.challenges ++ cs⟩ := by
  refine ⟨fun cid c name hp => ⟨?_, ?_, rfl⟩, fun u hu => ?_, fun c hm => ?_⟩
  · cases hr : app.rowId cid with
    | none => rfl
    | some n =>
      obtain ⟨x, hx, rfl⟩ := hc cid c name n hp hr
      rw [k.keyed.find_challenge hx]
      have := k.keyed.find_challenge hx
      simp only [Db.challenge] at this ⊢
      rw [List.find?_append, this]
      rfl
  · have : us.find? (fun u => u.username == name) = none := by
      rw [List.find?_eq_none]
      intro u hu he
      exact hn u hu (by rw [(parseForm_ok_iff.mp hp).2.1, beq_iff_eq.mp he])
    simp only [Db.userNamed, List.find?_append, this, Option.or_none]
  · have := k.keyed.find_handle hu
    rw [this]
    simp only [Db.userOfHandle] at this ⊢
    rw [List.find?_append, this]
    rfl
  · obtain ⟨u, hu, hi⟩ := k.owner c hm
    have := k.keyed.find_id hu
    rw [← hi, this]
    simp only [Db.userOfId] at this ⊢
    rw [List.find?_append, this]
    rfl

theorem change_having (g : Change) : db.change g = db.having (g.on db.credentials) := rfl

/-- A response and a request, of different users. -/
theorem swap_request {e x : Event} {f : Form} (k : Consistent db) (hf : e.form = some f) (hx : x.form = none)
    (hname : e.name ≠ x.name)
    (hc : ∀ cid c name n, parseForm app.env f = .ok (cid, c, name) → app.rowId cid = some n → ∃ y ∈ db.challenges, y.id = n) :
    (step app e (step app x db).2).1 = (step app e db).1 ∧ (step app x (step app e db).2).1 = (step app x db).1 ∧
      (step app e (step app x db).2).2 = (step app x (step app e db).2).2 := by
  have hfn : e.name = f.username := by cases e <;> cases hf <;> rfl
  obtain ⟨us, cs, hd, hus⟩ := request_shape (app := app) (db := db) hx
  obtain ⟨r, g, h1, h2, hg⟩ := response_frame (app := app) hf (agree_grown (cs := cs) (us := us) k
    (fun u hu h => hname (by rw [hfn, h, hus u hu])) hc) k.keyed
  have hs := request_frame (app := app) (db := db) (e := x) hx (l := g.on db.credentials) (by
    intro name u hn hu
    rcases hg with rfl | ⟨cid, c, name', hp, ⟨row, v, rfl, -, hv, hr⟩ | ⟨m, rfl⟩⟩
    · rfl
    · have hne : (row.userId == u.id) = false := by
        rw [hr, beq_eq_false_iff_ne]
        intro he
        obtain ⟨v1, v2⟩ := userNamed_some hv
        obtain ⟨u1, u2⟩ := userNamed_some hu
        have : v = u := k.keyed.userId_unique v1 u1 he
        apply hname
        rw [hfn, (parseForm_ok_iff.mp hp).2.1, hn, ← v2, ← u2, this]
      show ((db.credentials ++ [row]).filter _).map _ = _
      rw [List.filter_append]
      simp [hne]
    · show ((db.credentials.map (setCount c.rawId m)).filter _).map _ = _
      rw [filter_set, List.map_map]
      refine List.map_congr_left fun y _ => ?_
      simp only [Function.comp_def, setCount]
      split <;> rfl)
  rw [h1, hd, h2]
  simp only
  rw [change_having (db := db), hs, hd]
  exact ⟨trivial, rfl, rfl⟩

theorem add_set {row : CredentialRow} {id : Bytes} (h : row.id ≠ id) (m : Int) (l : List CredentialRow) :
    (l ++ [row]).map (setCount id m) = l.map (setCount id m) ++ [row] := by
  simp [setCount, h]

/-- Two responses, of different users with different credentials. -/
theorem swap_responses {e e' : Event} {f f' : Form} (k : Consistent db) (hf : e.form = some f) (hf' : e'.form = some f')
    (hname : e.name ≠ e'.name)
    (hne : ∀ cid c name cid' c' name', parseForm app.env f = .ok (cid, c, name) →
      parseForm app.env f' = .ok (cid', c', name') → c.rawId ≠ c'.rawId) :
    (step app e (step app e' db).2).1 = (step app e db).1 ∧ (step app e' (step app e db).2).1 = (step app e' db).1 ∧
      Reordered (step app e (step app e' db).2).2 (step app e' (step app e db).2).2 := by
  have hfn : e.name = f.username := by cases e <;> cases hf <;> rfl
  have hfn' : e'.name = f'.username := by cases e' <;> cases hf' <;> rfl
  have refl : ∀ f, SameLookups app f db db := fun f => ⟨fun _ _ _ _ => ⟨rfl, rfl, rfl⟩, fun _ _ => rfl, fun _ _ => rfl⟩
  obtain ⟨r', g', h1', -, hg'⟩ := response_frame (app := app) hf' (refl f') k.keyed
  obtain ⟨q, d, a1, a2, hd⟩ := response_frame (app := app) hf (agree_change hg' hne) k.keyed
  obtain ⟨q', d', a1', a2', hd'⟩ := response_frame (app := app) hf' (agree_change hd
    (fun cid c name cid' c' name' h h' he => hne _ _ _ _ _ _ h' h he.symm)) k.keyed
  have he : db.change g' = db.change d' := by rw [h1'] at a1'; exact congrArg Prod.snd a1'
  rw [he] at a2
  rw [a1, a1', a2, a2']
  refine ⟨rfl, rfl, rfl, rfl, fun n => ?_⟩
  show ((d'.on (d.on db.credentials)).filter _) = (d.on (d'.on db.credentials)).filter _
  rcases hd with rfl | ⟨cid, c, name, hp, ⟨row, u, rfl, hr, hu, hi⟩ | ⟨m, rfl⟩⟩
  · rfl
  · rcases hd' with rfl | ⟨cid', c', name', hp', ⟨row', u', rfl, hr', hu', hi'⟩ | ⟨m', rfl⟩⟩
    · rfl
    · show (((db.credentials ++ [row]) ++ [row']).filter _) = ((db.credentials ++ [row']) ++ [row]).filter _
      have hne : ¬ (row.userId = n ∧ row'.userId = n) := by
        rintro ⟨rfl, h2⟩
        obtain ⟨v1, v2⟩ := userNamed_some hu
        obtain ⟨u1, u2⟩ := userNamed_some hu'
        have : u' = u := k.keyed.userId_unique u1 v1 (by rw [← hi, ← hi', h2])
        apply hname
        rw [hfn, hfn', (parseForm_ok_iff.mp hp).2.1, (parseForm_ok_iff.mp hp').2.1, ← v2, ← u2, this]
      simp only [List.filter_append, List.append_assoc, List.filter_cons, List.filter_nil, beq_iff_eq]
      by_cases b : row.userId = n
      · have : ¬ row'.userId = n := fun b' => hne ⟨b, b'⟩
        simp [b, this]
      · simp [b]
    · exact congrArg _ (add_set (by rw [hr]; exact hne _ _ _ _ _ _ hp hp') m' db.credentials)
  · rcases hd' with rfl | ⟨cid', c', name', hp', ⟨row', u', rfl, hr', hu', hi'⟩ | ⟨m', rfl⟩⟩
    · rfl
    · exact congrArg _ (add_set (by rw [hr']; exact fun h => hne _ _ _ _ _ _ hp hp' h.symm) m db.credentials).symm
    · have h := hne _ _ _ _ _ _ hp hp'
      refine congrArg _ ?_
      show (db.credentials.map (setCount c.rawId m)).map (setCount c'.rawId m') =
        (db.credentials.map (setCount c'.rawId m')).map (setCount c.rawId m)
      rw [List.map_map, List.map_map]
      refine List.map_congr_left fun x _ => ?_
      simp only [Function.comp_def, setCount]
      by_cases b : x.id = c.rawId
      · have : ¬ x.id = c'.rawId := fun b' => h (b.symm.trans b')
        simp [b, h]
      · by_cases b' : x.id = c'.rawId
        · simp [b', Ne.symm h]
        · simp [b, b']

/-! ## The claim -/

theorem Reordered.refl (db : Db) : Reordered db db := ⟨rfl, rfl, fun _ => rfl⟩

theorem Reordered.symm {db db' : Db} (h : Reordered db db') : Reordered db' db :=
  ⟨h.users.symm, h.challenges.symm, fun n => (h.credentials n).symm⟩

theorem same_run {evs evs' : List Event} (h : Reordered (run app evs) (run app evs')) (post : List Event) :
    Reordered (run app (evs ++ post)) (run app (evs' ++ post)) := by
  induction post using List.reverseRecOn with
  | nil => simpa using h
  | append_singleton post e ih =>
    rw [← List.append_assoc, ← List.append_assoc, run_snoc, run_snoc]
    exact (ih.step (C64_consistent_history app _).keyed (C64_consistent_history app _).keyed e).2

theorem parse_readable {f : Form} {cid name : String} {c : Credential} (h : parseForm app.env f = .ok (cid, c, name)) :
    Readable app f cid c name := by
  obtain ⟨h1, h2, text, d, h3, h4, h5⟩ := parseForm_ok_iff.mp h
  exact ⟨text, d, h1, h3, h4, h5, h2⟩

theorem independent_swap {evs : List Event} {e e' : Event} (h : Independent app evs e e') :
    (step app e (step app e' (run app evs)).2).1 = (step app e (run app evs)).1 ∧
      (step app e' (step app e (run app evs)).2).1 = (step app e' (run app evs)).1 ∧
      Reordered (run app (evs ++ [e', e])) (run app (evs ++ [e, e'])) := by
  have k := C64_consistent_history app evs
  have issued : ∀ x f, x = e ∨ x = e' → x.form = some f → ∀ cid c name n,
      parseForm app.env f = .ok (cid, c, name) → app.rowId cid = some n → ∃ y ∈ (run app evs).challenges, y.id = n := by
    intro x f hx hf cid c name n hp hr
    obtain ⟨pre, y, ch, t, name', ho, hi⟩ := h.issued x f cid c name n hx hf (parse_readable hp) hr
    obtain ⟨u, -, -, hm⟩ := issued_row ho hi
    exact ⟨_, hm, rfl⟩
  rw [show evs ++ [e', e] = (evs ++ [e']) ++ [e] by simp, show evs ++ [e, e'] = (evs ++ [e]) ++ [e'] by simp,
    run_snoc, run_snoc, run_snoc, run_snoc]
  cases hf : e.form with
  | none =>
    cases hf' : e'.form with
    | none => exact absurd h.response (by simp [hf, hf'])
    | some f' =>
      obtain ⟨h1, h2, h3⟩ := swap_request k hf' hf (Ne.symm h.names) (issued e' f' (Or.inr rfl) hf')
      exact ⟨h2, h1, h3 ▸ Reordered.refl _⟩
  | some f =>
    cases hf' : e'.form with
    | none =>
      obtain ⟨h1, h2, h3⟩ := swap_request k hf hf' h.names (issued e f (Or.inl rfl) hf)
      exact ⟨h1, h2, h3 ▸ Reordered.refl _⟩
    | some f' =>
      exact swap_responses k hf hf' h.names fun cid c name cid' c' name' hp hp' =>
        h.credentials f f' cid c name cid' c' name' hf hf' (parse_readable hp) (parse_readable hp')

theorem Reordered.reply {evs evs' : List Event} (h : Reordered (run app evs) (run app evs')) (x : Event) :
    Flask.reply app evs' x = Flask.reply app evs x :=
  (h.step (C64_consistent_history app _).keyed (C64_consistent_history app _).keyed x).1

/-- C112: after every history, two requests that have nothing to do with each other can be exchanged: both get the same
reply in either order, and so does every request after them, whatever happens in between. -/
theorem C112_order {evs : List Event} {e e' : Event} (h : Independent app evs e e') :
    Exchangeable (reply app) evs e e' := by
  obtain ⟨k1, k2, k3⟩ := independent_swap h
  refine ⟨?_, ?_, fun post x => ?_⟩
  · rw [reply, reply, run_snoc, k1]
  · rw [reply, reply, run_snoc, k2]
  · have := same_run k3 post
    rw [show evs ++ [e', e] ++ post = evs ++ e' :: e :: post by simp,
      show evs ++ [e, e'] ++ post = evs ++ e :: e' :: post by simp] at this
    exact this.reply x

theorem Independent.symm {evs : List Event} {e e' : Event} (h : Independent app evs e e') : Independent app evs e' e :=
  ⟨Ne.symm h.names, h.response.symm, fun x f cid c name n hx => h.issued x f cid c name n hx.symm,
    fun f f' cid c name cid' c' name' hf hf' hr hr' => Ne.symm (h.credentials f' f cid' c' name' cid c name hf' hf hr' hr)⟩

theorem Independent.later {evs : List Event} {e e' : Event} (h : Independent app evs e e') (more : List Event) :
    Independent app (evs ++ more) e e' := by
  refine ⟨h.names, h.response, fun x f cid c name n hx hf hr hn => ?_, h.credentials⟩
  obtain ⟨pre, y, ch, t, name', ⟨post, rfl⟩, hi⟩ := h.issued x f cid c name n hx hf hr hn
  exact ⟨pre, y, ch, t, name', ⟨post ++ more, by simp⟩, hi⟩

/-- C112: whatever a request has nothing to do with may come before it. -/
theorem C112_alone {evs pre : List Event} {e : Event} (h : ∀ x ∈ pre, Independent app evs x e) :
    reply app (evs ++ pre) e = reply app evs e := by
  induction pre using List.reverseRecOn with
  | nil => rw [List.append_nil]
  | append_singleton pre x ih =>
    rw [← List.append_assoc, (C112_order ((h x (by simp)).later pre)).2.1]
    exact ih fun y hy => h y (by simp [hy])

/-- C112: requests that have nothing to do with each other may come in any order. -/
theorem C112_any_order {es es' : List Event} (hp : es.Perm es') {evs : List Event}
    (h : es.Pairwise (Independent app evs)) (post : List Event) (x : Event) :
    reply app (evs ++ es ++ post) x = reply app (evs ++ es' ++ post) x := by
  have key : Reordered (run app (evs ++ es')) (run app (evs ++ es)) := by
    induction hp generalizing evs with
    | nil => exact Reordered.refl _
    | cons y _ ih =>
      have := ih (evs := evs ++ [y]) ((List.pairwise_cons.mp h).2.imp fun h => h.later [y])
      simpa using this
    | swap y z l =>
      have := same_run (independent_swap ((List.pairwise_cons.mp h).1 y (by simp))).2.2 l
      simpa using this
    | trans p1 _ ih1 ih2 =>
      have h1 := ih1 h
      have h2 := ih2 ((p1.pairwise_iff fun h => h.symm).mp h)
      exact ⟨h1.users.trans h2.users, h1.challenges.trans h2.challenges,
        fun n => (h1.credentials n).trans (h2.credentials n)⟩
  exact (same_run key post).reply x

end WebAuthn.Flask
