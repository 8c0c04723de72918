import Verif.Spec.Contract
import Verif.Props.Guards
import Verif.Props.Whole

/-!
# What the example application relies on (C96)
-/

namespace WebAuthn.Flask

open WebAuthn WebAuthn.Spec WebAuthn.Props

/-! ## What a request does -/

/-- A user may have been added. -/
inductive MayAddUser (db : Db) : Db → Prop
  | same : MayAddUser db db
  | added (name : String) (hd : Bytes) : (∀ u ∈ db.users, u.username ≠ name ∧ u.handle ≠ hd) →
      MayAddUser db { db with users := db.users ++ [⟨db.users.length + 1, name, hd⟩] }

/-- The reply names a challenge. -/
def NamesChallenge (r : Reply) (n : Nat) : Prop :=
  ∃ key v, r = .json (.dict [(.str "challengeID", .int n), (.str key, v)])

/-- The request `e` is answered with `r` and changes the tables. -/
inductive Effect (rule : CounterRule) (app : App) : Event → Db → Reply → Db → Prop
  | quiet {e : Event} {db db' : Db} {r : Reply} : MayAddUser db db' → r ≠ success →
      (∀ n, ¬ NamesChallenge r n) → Effect rule app e db r db'
  | issue {e : Event} {db db' : Db} {r : Reply} {u : User} {ch : Bytes} {t : Int} : MayAddUser db db' →
      u ∈ db'.users → (∀ c ∈ db'.challenges, c.request ≠ ch) → ((∃ h, e = .registrationRequest (some u.username) h ch t) ∨
        e = .authenticationRequest (some u.username) ch t) →
      NamesChallenge r (db'.challenges.length + 1) →
      Effect rule app e db r { db' with
        challenges := db'.challenges ++ [⟨db'.challenges.length + 1, ch, t, u.id⟩] }
  | register {f : Form} {t : Int} {db : Db} {c : Credential} {name : String} {ch : Challenge} {u v : User}
      {cdj ob raw key : Bytes} {o : AttestationObject} {acd : AttestedCredentialData} {k : CPK} :
      Submits app f ch.id c name → ch ∈ db.challenges → t - ch.timestamp ≤ 60000 → u ∈ db.users →
      u.username = name → v ∈ db.users → v.handle = u.handle → c.response = .attestation cdj ob →
      ClientSays app.env cdj "webauthn.create" ch.request (.one "http://localhost:5000") →
      AttObjOf app.env ob o raw → o.authData.attested = some acd → acd.credentialPublicKey = some k →
      coseKey app.env k = .ok key → (∀ row ∈ db.credentials, row.id ≠ c.rawId) →
      Effect rule app (.registrationResponse f t) db success
        { db with credentials := db.credentials ++ [⟨c.rawId, none, key, v.id⟩] }
  | login {f : Form} {t : Int} {db : Db} {c : Credential} {name : String} {ch : Challenge} {u v : User}
      {row : CredentialRow} {key : CPK} {cdj raw sig : Bytes} {handle : Option Bytes} {ad : AuthData} :
      Submits app f ch.id c name → ch ∈ db.challenges → t - ch.timestamp ≤ 60000 → u ∈ db.users →
      u.username = name → row ∈ db.credentials → row.id = c.rawId →
      parseCoseKeyBytes app.env row.key = .ok key → v ∈ db.users → v.id = row.userId →
      v.handle = u.handle → c.response = .assertion cdj raw sig handle →
      ClientSays app.env cdj "webauthn.get" ch.request (.one "http://localhost:5000") →
      AuthDataOf app.env raw ad → RpHashOk app.env raw "localhost" → FlagSet raw 0 →
      SignedBy app.env key sig (raw ++ app.env.sha256 cdj) →
      (∀ k, row.count = some k → rule k ad.signCount) →
      Effect rule app (.authenticationResponse f t) db success
        { db with credentials := db.credentials.map (setCount c.rawId ad.signCount) }

theorem conclude_not_names {m : String} {r : Py Unit} {n : Nat} : ¬ NamesChallenge (conclude m r) n := by
  rintro ⟨key, v, h⟩
  unfold conclude at h
  split at h
  · cases h
  · split at h <;> cases h

theorem readResponse_not_names {app : App} {att : Bool} {f : Form} {now : Int} {db : Db} {r : Reply} {n : Nat}
    (h : readResponse app att f now db = .error r) : ¬ NamesChallenge r n := by
  rintro ⟨key, v, rfl⟩
  unfold readResponse at h
  split at h
  · split at h <;> cases h
  · split at h
    · cases h
    split at h
    · cases h
    split at h
    · cases h
    split at h <;> cases h

section
variable {app : App} {pkg : Package} {rule : CounterRule}

theorem effect_requests {e : Event} {db : Db} (he : formIn e = none) :
    Effect rule app e db (packageStep pkg app e db).1 (packageStep pkg app e db).2 := by
  cases e with
  | registrationResponse f t => cases he
  | authenticationResponse f t => cases he
  | registrationRequest name hd ch t =>
    show Effect rule app _ db (registrationRequest name hd ch t db).1 (registrationRequest name hd ch t db).2
    cases name with
    | none =>
      refine .quiet .same ?_ ?_
      · simp [registrationRequest, badRequest, success]
      · rintro n ⟨key, v, h⟩
        cases h
    | some name =>
      have key : ∀ (u : User) (db' : Db), MayAddUser db db' → u ∈ db'.users → u.username = name →
          findOrAddUser db name hd = (.ok u, db') →
          Effect rule app (.registrationRequest (some name) hd ch t) db
            (registrationRequest (some name) hd ch t db).1 (registrationRequest (some name) hd ch t db).2 := by
        intro u db' hdb hu hn hf
        rcases addChallenge_cases db' ch t u.id with ha | ⟨hnew, ha⟩
        · simp only [registrationRequest, hf, ha]
          exact .quiet hdb (by simp [success]) (by rintro n ⟨key, v, h⟩; cases h)
        · simp only [registrationRequest, hf, ha]
          obtain ⟨v, hv, -⟩ := creation_reply (db'.challenges.length + 1)
            { name := name, id := u.handle, displayName := name } ch
          exact .issue hdb hu hnew (Or.inl ⟨hd, by rw [hn]⟩) ⟨_, v, hv⟩
      rcases findOrAddUser_cases db name hd with ⟨u, hu, hn, hf⟩ | hf | ⟨hfresh, hf⟩
      · exact key u _ .same hu hn hf
      · simp only [registrationRequest, hf]
        exact .quiet .same (by simp [success]) (by rintro n ⟨key, v, h⟩; cases h)
      · exact key _ _ (.added _ _ hfresh) (by simp) rfl hf
  | authenticationRequest name ch t =>
    show Effect rule app _ db (authenticationRequest name ch t db).1 (authenticationRequest name ch t db).2
    cases name with
    | none =>
      refine .quiet .same ?_ ?_
      · simp [authenticationRequest, badRequest, success]
      · rintro n ⟨key, v, h⟩
        cases h
    | some name =>
      cases hu : db.userNamed name with
      | none =>
        simp only [authenticationRequest, hu]
        exact .quiet .same (by simp [success]) (by rintro n ⟨key, v, h⟩; cases h)
      | some u =>
        obtain ⟨hu1, hu2⟩ := userNamed_some hu
        rcases addChallenge_cases db ch t u.id with ha | ⟨hnew, ha⟩
        · simp only [authenticationRequest, hu, ha]
          exact .quiet .same (by simp [success]) (by rintro n ⟨key, v, h⟩; cases h)
        · simp only [authenticationRequest, hu, ha]
          obtain ⟨v, hv, -⟩ := request_reply (db.challenges.length + 1)
            (db.credentials.filter fun c => c.userId == u.id) ch
          exact .issue .same hu1 hnew (Or.inr (by rw [hu2])) ⟨_, v, hv⟩

theorem packageStep_read {e : Event} {att : Bool} {f : Form} {t : Int} {db : Db} {r : Reply}
    (he : e = .registrationResponse f t ∧ att = true ∨ e = .authenticationResponse f t ∧ att = false)
    (h : readResponse app att f t db = .error r) : packageStep pkg app e db = (r, db) := by
  rcases he with ⟨rfl, rfl⟩ | ⟨rfl, rfl⟩ <;> simp only [packageStep, h]

theorem packageStep_registration {f : Form} {t : Int} {c : Credential} {ch : Challenge} {u : User} {db db' : Db}
    (h : readResponse app true f t db = .ok (c, ch, u)) {r : Py Unit}
    (hh : pkg.attestation (registrar app.env) (attestationArgs c ch u) db = (r, db')) :
    packageStep pkg app (.registrationResponse f t) db =
      (conclude "Could not handle credential attestation" r, db') := by
  simp only [packageStep, h, hh]

theorem packageStep_login {f : Form} {t : Int} {c : Credential} {ch : Challenge} {u : User} {db db' : Db}
    (h : readResponse app false f t db = .ok (c, ch, u)) {r : Py Unit}
    (hh : pkg.assertion (registrar app.env) (assertionArgs c ch u) db = (r, db')) :
    packageStep pkg app (.authenticationResponse f t) db =
      (conclude "Could not handle credential assertion" r, db') := by
  simp only [packageStep, h, hh]

/-- Whatever package keeps the contract, requests do what they should. -/
theorem effect_of (con : ContractBy rule app.env pkg) (e : Event) (db : Db) :
    Effect rule app e db (packageStep pkg app e db).1 (packageStep pkg app e db).2 := by
  cases e with
  | registrationRequest name hd ch t => exact effect_requests rfl
  | authenticationRequest name ch t => exact effect_requests rfl
  | registrationResponse f t =>
    cases hr : readResponse app true f t db with
    | error r =>
      rw [packageStep_read (Or.inl ⟨rfl, rfl⟩) hr]
      exact .quiet .same (readResponse_ne_success hr) fun n => readResponse_not_names hr
    | ok x =>
      obtain ⟨c, ch, u⟩ := x
      obtain ⟨n, name, h1, -, h3, h4, h5⟩ := readResponse_ok_iff.mp hr
      obtain ⟨hc1, hc2⟩ := challenge_some h3
      obtain rfl := Option.some.inj hc2
      obtain ⟨hu1, hu2⟩ := userNamed_some h4
      rcases hh : pkg.attestation (registrar app.env) (attestationArgs c ch u) db with ⟨_ | ⟨⟩, db'⟩ <;>
        rw [packageStep_registration hr hh]
      · rename_i e
        refine .quiet ?_ (by simp [conclude_success]) (fun n => conclude_not_names (r := .error e) (n := n))
        rcases con.registersNot _ _ _ _ _ hh with rfl | ⟨record, w, h6, h7⟩
        · exact .same
        · have h6 : registerAttestation app.env record db = _ := h6
          rcases registerAttestation_cases app.env record db with ⟨x, h8, h9⟩ |
            ⟨acd, u, k, key, h8, h9, h10, h11, h12, h13⟩
          · rw [h9] at h6
            cases h6
            exact .same
          · rw [h13] at h6
            cases h6
            exact absurd rfl h7
      · obtain ⟨cdj, ob, o, raw, ty, path, g1, g2, g3, g4⟩ := con.registers _ _ _ _ hh
        have g4 : registerAttestation app.env ⟨c, o, ty, u.entity, rp, path⟩ db = _ := g4
        rcases registerAttestation_cases app.env ⟨c, o, ty, u.entity, rp, path⟩ db with ⟨x, h8, h9⟩ |
            ⟨acd, v, k, key, h8, h9, h10, h11, h12, h13⟩
        · rw [h9] at g4
          cases g4
          exact absurd rfl h8
        · rw [h13] at g4
          cases g4
          obtain ⟨hv1, hv2⟩ := userOfHandle_some h9
          exact .register h1 hc1 h5 hu1 hu2 hv1 hv2 g1 g2 g3 h8 h10 h11 h12
  | authenticationResponse f t =>
    cases hr : readResponse app false f t db with
    | error r =>
      rw [packageStep_read (Or.inr ⟨rfl, rfl⟩) hr]
      exact .quiet .same (readResponse_ne_success hr) fun n => readResponse_not_names hr
    | ok x =>
      obtain ⟨c, ch, u⟩ := x
      obtain ⟨n, name, h1, -, h3, h4, h5⟩ := readResponse_ok_iff.mp hr
      obtain ⟨hc1, hc2⟩ := challenge_some h3
      obtain rfl := Option.some.inj hc2
      obtain ⟨hu1, hu2⟩ := userNamed_some h4
      rcases hh : pkg.assertion (registrar app.env) (assertionArgs c ch u) db with ⟨_ | ⟨⟩, db'⟩ <;>
        rw [packageStep_login hr hh]
      · rename_i e
        refine .quiet ?_ (by simp [conclude_success]) (fun n => conclude_not_names (r := .error e) (n := n))
        rcases con.logsInNot _ _ _ _ _ hh with rfl | rfl | ⟨record, w, h6, h7⟩
        · exact .same
        · exact .same
        · have h6 : registerAssertion record db = _ := h6
          rcases registerAssertion_cases record db with ⟨h8, -⟩ | ⟨-, h8⟩
          · rw [h8] at h6
            cases h6
            exact .same
          · rw [h8] at h6
            cases h6
            exact absurd rfl h7
      · obtain ⟨cd, s1, user, rp', ad, cdj, raw, sig, handle, g1, g2, g3, g4, g5, g6, g7, g8, g9, g10, g11⟩ :=
          con.logsIn _ _ _ _ hh
        have g0 : (credentialData app.env c.rawId db, db) = _ := g1
        obtain ⟨g12, rfl⟩ := Prod.mk.inj g0
        clear g0 g1
        rename' g12 => g1
        have g11 : registerAssertion ⟨c, ad, user, rp'⟩ db = _ := g11
        unfold credentialData at g1
        cases hc : db.credential c.rawId with
        | none =>
          rw [hc] at g1
          cases g1
        | some row =>
          rw [hc] at g1
          simp only [bind_ok_iff] at g1
          obtain ⟨key, hk, g1⟩ := g1
          split at g1
          · cases g1
          rename_i v hv
          simp only [pure_eq_ok, Except.ok.injEq, Option.some.injEq] at g1
          subst g1
          obtain ⟨hv1, hv2⟩ := userOfId_some hv
          obtain ⟨hr1, hr2⟩ := credential_some hc
          have huv : v.handle = u.handle := by
            cases g3 with
            | given _ _ he _ => exact he.symm
          have hrp : rp' = rp := by
            cases g4
            rfl
          subst hrp
          rcases registerAssertion_cases ⟨c, ad, user, rp⟩ db with ⟨h8, -⟩ | ⟨-, h8⟩
          · rw [h8] at g11
            cases g11
          · rw [h8] at g11
            cases g11
            refine .login h1 hc1 h5 hu1 hu2 hr1 hr2 hk hv1 hv2 huv g2 g5 g6 g7 g8 g9 fun k hk => ?_
            show rule k ad.signCount
            obtain ⟨m, h9, h10⟩ := g10 k hk rfl
            have := (authDataOf_head g6).2.2.2
            rw [bigEndian_iff] at h9 this
            have hm : m = ad.signCount := by omega
            exact hm ▸ h10

theorem registersBy_unique {rep : List Event → Event → Reply} {pre : List Event} {e : Event}
    {id id' : Bytes} {name name' : String} {k k' : CPK} (h : RegistersBy rep app pre e id name k)
    (h' : RegistersBy rep app pre e id' name' k') : id = id' ∧ name = name' ∧ k = k' := by
  obtain ⟨f, t, n, c, cdj, ob, o, raw, acd, rfl, -, h1, h2, h3, h4, h5, h6⟩ := h
  obtain ⟨f', t', n', c', cdj', ob', o', raw', acd', he, -, g1, g2, g3, g4, g5, g6⟩ := h'
  cases he
  obtain ⟨rfl, rfl, rfl⟩ := submits_unique h1 g1
  rw [h3] at g3
  cases g3
  rw [← parseAttestationObject_ok_iff] at h4 g4
  rw [h4] at g4
  cases g4
  rw [h5] at g5
  cases g5
  rw [h6] at g6
  exact ⟨h2.symm.trans g2, rfl, Option.some.inj g6⟩

/-! ## What every history leaves in the tables -/

/-- The rows of the tables have their origin in the history, and it has left them there. -/
structure Ledger (rep : List Event → Event → Reply) (app : App) (evs : List Event) (db : Db) : Prop where
  userIds : ∀ (i : Nat) (u : User), db.users[i]? = some u → u.id = i + 1
  names : db.users.Pairwise fun a b => a.username ≠ b.username
  handles : db.users.Pairwise fun a b => a.handle ≠ b.handle
  challengeIds : ∀ (i : Nat) (c : Challenge), db.challenges[i]? = some c → c.id = i + 1
  requests : db.challenges.Pairwise fun a b => a.request ≠ b.request
  credentialIds : db.credentials.Pairwise fun a b => a.id ≠ b.id
  challenges : ∀ c ∈ db.challenges, ∃ pre e u, Occurs evs pre e ∧ u ∈ db.users ∧ u.id = c.userId ∧
    IssuesBy rep pre e c.id c.request c.timestamp u.username
  credentials : ∀ c ∈ db.credentials, ∃ pre e u k, Occurs evs pre e ∧ u ∈ db.users ∧
    u.id = c.userId ∧ RegistersBy rep app pre e c.id u.username k ∧ coseKey app.env k = .ok c.key
  issued : ∀ pre e n ch t name, Occurs evs pre e → IssuesBy rep pre e n ch t name →
    ∃ u, u ∈ db.users ∧ u.username = name ∧ (⟨n, ch, t, u.id⟩ : Challenge) ∈ db.challenges
  rows : ∀ pre e id name k, Occurs evs pre e → RegistersBy rep app pre e id name k →
    ∃ u row, u ∈ db.users ∧ u.username = name ∧ row ∈ db.credentials ∧ row.id = id ∧
      row.userId = u.id ∧ coseKey app.env k = .ok row.key
  counts : ∀ pre e id m, Occurs evs pre e → AuthenticatesBy rep app pre e id m →
    ∃ row k, row ∈ db.credentials ∧ row.id = id ∧ row.count = some k ∧ (m : Int) ≤ k
  counted : ∀ row ∈ db.credentials, ∀ k, row.count = some k → ∃ pre e m, Occurs evs pre e ∧
    AuthenticatesBy rep app pre e row.id m ∧ k = (m : Int)

variable {rep : List Event → Event → Reply} {evs : List Event} {db : Db}

theorem Ledger.empty : Ledger rep app [] {} where
  userIds := by simp
  names := .nil
  handles := .nil
  challengeIds := by simp
  requests := .nil
  credentialIds := .nil
  challenges := by simp
  credentials := by simp
  issued := by rintro pre e n ch t name ⟨post, h⟩; simp at h
  rows := by rintro pre e id name k ⟨post, h⟩; simp at h
  counts := by rintro pre e id m ⟨post, h⟩; simp at h
  counted := by simp

theorem user_unique {l : List User} (h : ∀ (i : Nat) (u : User), l[i]? = some u → u.id = i + 1) {u v : User}
    (hu : u ∈ l) (hv : v ∈ l) (he : u.id = v.id) : u = v := by
  obtain ⟨i, hi⟩ := List.mem_iff_getElem?.mp hu
  obtain ⟨j, hj⟩ := List.mem_iff_getElem?.mp hv
  have h1 := h i u hi
  have h2 := h j v hj
  obtain rfl : i = j := by omega
  rw [hi] at hj
  exact Option.some.inj hj

theorem Ledger.handle_unique (h : Ledger rep app evs db) {u v : User} (hu : u ∈ db.users)
    (hv : v ∈ db.users) (he : u.handle = v.handle) : u = v := pairwise_unique h.handles hu hv he

/-- A request that is not answered with success nor with a challenge leaves no traces, but for a
user. -/
theorem Ledger.quiet (h : Ledger rep app evs db) {e : Event} {db' : Db} (hm : MayAddUser db db')
    (hs : rep evs e ≠ success) (hn : ∀ n, ¬ NamesChallenge (rep evs e) n) :
    Ledger rep app (evs ++ [e]) db' := by
  have hsub : ∀ u ∈ db.users, u ∈ db'.users := by
    cases hm with
    | same => exact fun _ h => h
    | added => exact fun _ h => List.mem_append_left _ h
  have hch : db'.challenges = db.challenges := by cases hm <;> rfl
  have hcr : db'.credentials = db.credentials := by cases hm <;> rfl
  refine ⟨?_, ?_, ?_, hch ▸ h.challengeIds, hch ▸ h.requests, hcr ▸ h.credentialIds, ?_, ?_, ?_, ?_, ?_, ?_⟩
  · cases hm with
    | same => exact h.userIds
    | added name hd hf =>
      intro i u hu
      rcases getElem?_snoc hu with hu | ⟨rfl, rfl⟩
      · exact h.userIds i u hu
      · rfl
  · cases hm with
    | same => exact h.names
    | added name hd hf => exact pairwise_snoc h.names fun u hu => (hf u hu).1
  · cases hm with
    | same => exact h.handles
    | added name hd hf => exact pairwise_snoc h.handles fun u hu => (hf u hu).2
  · intro c hc
    obtain ⟨pre, e', u, h1, h2, h3⟩ := h.challenges c (hch ▸ hc)
    exact ⟨pre, e', u, occurs_snoc h1, hsub u h2, h3⟩
  · intro c hc
    obtain ⟨pre, e', u, k, h1, h2, h3⟩ := h.credentials c (hcr ▸ hc)
    exact ⟨pre, e', u, k, occurs_snoc h1, hsub u h2, h3⟩
  · intro pre e' n ch t name ho hi
    rcases occurs_snoc_cases ho with ho | ⟨rfl, rfl⟩
    · obtain ⟨u, h1, h2, h3⟩ := h.issued pre e' n ch t name ho hi
      exact ⟨u, hsub u h1, h2, hch ▸ h3⟩
    · exact absurd hi.1 (hn n)
  · intro pre e' id name k ho hr
    rcases occurs_snoc_cases ho with ho | ⟨rfl, rfl⟩
    · obtain ⟨u, row, h1, h2, h3, h4⟩ := h.rows pre e' id name k ho hr
      exact ⟨u, row, hsub u h1, h2, hcr ▸ h3, h4⟩
    · obtain ⟨f, t, n, c, cdj, ob, o, raw, acd, rfl, h1, -⟩ := hr
      exact absurd h1 hs
  · intro pre e' id m ho ha
    rcases occurs_snoc_cases ho with ho | ⟨rfl, rfl⟩
    · rw [hcr]
      exact h.counts pre e' id m ho ha
    · obtain ⟨f, t, n, c, name, rfl, h1, -⟩ := ha
      exact absurd h1 hs
  · intro row hrow k hk
    obtain ⟨pre, e', m, h1, h2⟩ := h.counted row (hcr ▸ hrow) k hk
    exact ⟨pre, e', m, occurs_snoc h1, h2⟩

theorem names_unique {r : Reply} {n n' : Nat} (h : NamesChallenge r n) (h' : NamesChallenge r n') :
    n = n' := by
  obtain ⟨key, v, rfl⟩ := h
  obtain ⟨key', v', h⟩ := h'
  simp only [Reply.json.injEq, PyVal.dict.injEq, List.cons.injEq, Prod.mk.injEq, PyVal.int.injEq] at h
  omega

theorem names_not_success {r : Reply} {n : Nat} (h : NamesChallenge r n) : r ≠ success := by
  obtain ⟨key, v, rfl⟩ := h
  simp [success]

/-- A user that is added is an event on its own. -/
theorem Ledger.addUser (h : Ledger rep app evs db) {db' : Db} (hm : MayAddUser db db') :
    Ledger rep app evs db' := by
  cases hm with
  | same => exact h
  | added name hd hf =>
    refine ⟨?_, pairwise_snoc h.names fun u hu => (hf u hu).1,
      pairwise_snoc h.handles fun u hu => (hf u hu).2, h.challengeIds, h.requests, h.credentialIds, ?_, ?_, ?_, ?_,
      h.counts, h.counted⟩
    · intro i u hu
      rcases getElem?_snoc hu with hu | ⟨rfl, rfl⟩
      · exact h.userIds i u hu
      · rfl
    · intro c hc
      obtain ⟨pre, e', u, h1, h2, h3⟩ := h.challenges c hc
      exact ⟨pre, e', u, h1, List.mem_append_left _ h2, h3⟩
    · intro c hc
      obtain ⟨pre, e', u, k, h1, h2, h3⟩ := h.credentials c hc
      exact ⟨pre, e', u, k, h1, List.mem_append_left _ h2, h3⟩
    · intro pre e' n ch t name ho hi
      obtain ⟨u, h1, h2⟩ := h.issued pre e' n ch t name ho hi
      exact ⟨u, List.mem_append_left _ h1, h2⟩
    · intro pre e' id name k ho hr
      obtain ⟨u, row, h1, h2⟩ := h.rows pre e' id name k ho hr
      exact ⟨u, row, List.mem_append_left _ h1, h2⟩

theorem Ledger.step (asc : Ascending rule) (h : Ledger rep app evs db) {e : Event} {db' : Db}
    (he : Effect rule app e db (rep evs e) db') : Ledger rep app (evs ++ [e]) db' := by
  generalize hrep : rep evs e = r at he
  cases he with
  | quiet hm hs hn => exact h.quiet hm (hrep ▸ hs) (hrep ▸ hn)
  | @issue _ _ db1 _ u ch t hm hu hnew hev hn =>
    have h := h.addUser hm
    have hs := names_not_success hn
    have hiss : IssuesBy rep evs e (db1.challenges.length + 1) ch t u.username := ⟨hrep ▸ hn, hev⟩
    have hc' : ∀ row ∈ db1.credentials, ∀ k, row.count = some k → ∃ pre e' m, Occurs (evs ++ [e]) pre e' ∧
        AuthenticatesBy rep app pre e' row.id m ∧ k = (m : Int) := by
      intro row hrow k hk
      obtain ⟨pre, e', m, h1, h2⟩ := h.counted row hrow k hk
      exact ⟨pre, e', m, occurs_snoc h1, h2⟩
    refine ⟨h.userIds, h.names, h.handles, ?_, pairwise_snoc h.requests hnew, h.credentialIds, ?_, ?_, ?_, ?_, ?_, hc'⟩
    · intro i c hc
      rcases getElem?_snoc hc with hc | ⟨rfl, rfl⟩
      · exact h.challengeIds i c hc
      · rfl
    · intro c hc
      rcases List.mem_append.mp hc with hc | hc
      · obtain ⟨pre, e', u, h1, h2⟩ := h.challenges c hc
        exact ⟨pre, e', u, occurs_snoc h1, h2⟩
      · rw [List.mem_singleton] at hc
        subst hc
        exact ⟨evs, e, u, occurs_last _ _, hu, rfl, hiss⟩
    · intro c hc
      obtain ⟨pre, e', u, k, h1, h2⟩ := h.credentials c hc
      exact ⟨pre, e', u, k, occurs_snoc h1, h2⟩
    · intro pre e' n ch' t' name ho hi
      rcases occurs_snoc_cases ho with ho | ⟨rfl, rfl⟩
      · obtain ⟨u, h1, h2, h3⟩ := h.issued pre e' n ch' t' name ho hi
        exact ⟨u, h1, h2, List.mem_append_left _ h3⟩
      · obtain rfl := names_unique hi.1 hiss.1
        refine ⟨u, hu, ?_⟩
        rcases hev with ⟨hd, rfl⟩ | rfl
        · obtain ⟨-, ⟨hd', h1⟩ | h1⟩ := hi <;> cases h1
          exact ⟨rfl, List.mem_append_right _ (List.mem_singleton.mpr rfl)⟩
        · obtain ⟨-, ⟨hd', h1⟩ | h1⟩ := hi <;> cases h1
          exact ⟨rfl, List.mem_append_right _ (List.mem_singleton.mpr rfl)⟩
    · intro pre e' id name k ho hr
      rcases occurs_snoc_cases ho with ho | ⟨rfl, rfl⟩
      · exact h.rows pre e' id name k ho hr
      · obtain ⟨_, _, _, _, _, _, _, _, _, -, h1, -⟩ := hr
        exact absurd (hrep.symm.trans h1) hs
    · intro pre e' id m ho ha
      rcases occurs_snoc_cases ho with ho | ⟨rfl, rfl⟩
      · exact h.counts pre e' id m ho ha
      · obtain ⟨_, _, _, _, _, -, h1, -⟩ := ha
        exact absurd (hrep.symm.trans h1) hs
  | @register f t _ c name ch u v cdj ob raw key o acd k h1 h2 h3 h4 h5 h6 h7 h8 h9 h10 h11 h12 h13 h14 =>
    obtain rfl : v = u := h.handle_unique h6 h4 h7
    have hreg : RegistersBy rep app evs (.registrationResponse f t) c.rawId v.username k :=
      ⟨f, t, ch.id, c, cdj, ob, o, raw, acd, rfl, hrep, h5 ▸ h1, rfl, h8, h10, h11, h12⟩
    refine ⟨h.userIds, h.names, h.handles, h.challengeIds, h.requests, pairwise_snoc h.credentialIds h14, ?_, ?_, ?_,
      ?_, ?_, ?_⟩
    · intro c hc
      obtain ⟨pre, e', u, g1, g2⟩ := h.challenges c hc
      exact ⟨pre, e', u, occurs_snoc g1, g2⟩
    · intro row hrow
      rcases List.mem_append.mp hrow with hrow | hrow
      · obtain ⟨pre, e', u, k, g1, g2⟩ := h.credentials row hrow
        exact ⟨pre, e', u, k, occurs_snoc g1, g2⟩
      · rw [List.mem_singleton] at hrow
        subst hrow
        exact ⟨evs, _, v, k, occurs_last _ _, h4, rfl, hreg, h13⟩
    · intro pre e' n ch' t' name ho hi
      rcases occurs_snoc_cases ho with ho | ⟨rfl, rfl⟩
      · exact h.issued pre e' n ch' t' name ho hi
      · obtain ⟨-, ⟨hd, g1⟩ | g1⟩ := hi <;> cases g1
    · intro pre e' id name' k' ho hr
      rcases occurs_snoc_cases ho with ho | ⟨rfl, rfl⟩
      · obtain ⟨u, row, g1, g2, g3, g4⟩ := h.rows pre e' id name' k' ho hr
        exact ⟨u, row, g1, g2, List.mem_append_left _ g3, g4⟩
      · obtain ⟨rfl, rfl, rfl⟩ := registersBy_unique hr hreg
        exact ⟨v, _, h4, rfl, List.mem_append_right _ (List.mem_singleton.mpr rfl), rfl, rfl, h13⟩
    · intro pre e' id m ho ha
      rcases occurs_snoc_cases ho with ho | ⟨rfl, rfl⟩
      · obtain ⟨row, k, g1, g2⟩ := h.counts pre e' id m ho ha
        exact ⟨row, k, List.mem_append_left _ g1, g2⟩
      · obtain ⟨_, _, _, _, _, g1, -⟩ := ha
        cases g1
    · intro row hrow k hk
      rcases List.mem_append.mp hrow with hrow | hrow
      · obtain ⟨pre, e', m, g1, g2⟩ := h.counted row hrow k hk
        exact ⟨pre, e', m, occurs_snoc g1, g2⟩
      · rw [List.mem_singleton] at hrow
        subst hrow
        cases hk
  | @login f t _ c name ch u v row key cdj raw sig handle ad h1 h2 h3 h4 h5 h6 h7 h8 h9 h10 h11 h12 h13 h14 h15
      h16 h17 h18 =>
    have hcount : HasCounter c ad.signCount := ⟨cdj, raw, sig, handle, h12, (authDataOf_head h14).2.2.2⟩
    have hnew : AuthenticatesBy rep app evs (.authenticationResponse f t) c.rawId ad.signCount :=
      ⟨f, t, ch.id, c, name, rfl, hrep, h1, rfl, hcount⟩
    have hc' : ∀ row ∈ db.credentials.map (setCount c.rawId ad.signCount), ∀ k, row.count = some k →
        ∃ pre e' m, Occurs (evs ++ [.authenticationResponse f t]) pre e' ∧
          AuthenticatesBy rep app pre e' row.id m ∧ k = (m : Int) := by
      intro row' hrow k hk
      obtain ⟨row', hrow', rfl⟩ := List.mem_map.mp hrow
      rw [(setCount_keeps _ _ _).1]
      by_cases hid : row'.id = c.rawId
      · rw [setCount, if_pos (by simpa using hid)] at hk
        cases hk
        exact ⟨evs, _, ad.signCount, occurs_last _ _, hid ▸ hnew, rfl⟩
      · rw [setCount, if_neg (by simpa using hid)] at hk
        obtain ⟨pre, e', m, g1, g2⟩ := h.counted row' hrow' k hk
        exact ⟨pre, e', m, occurs_snoc g1, g2⟩
    refine ⟨h.userIds, h.names, h.handles, h.challengeIds, h.requests, ?_, ?_, ?_, ?_, ?_, ?_, hc'⟩
    · refine List.Pairwise.map _ (fun a b hab => ?_) h.credentialIds
      rw [(setCount_keeps _ _ a).1, (setCount_keeps _ _ b).1]
      exact hab
    · intro c hc
      obtain ⟨pre, e', u, g1, g2⟩ := h.challenges c hc
      exact ⟨pre, e', u, occurs_snoc g1, g2⟩
    · intro row' hrow
      obtain ⟨row', hrow', rfl⟩ := List.mem_map.mp hrow
      obtain ⟨e1, e2, e3⟩ := setCount_keeps c.rawId ad.signCount row'
      rw [e1, e2, e3]
      obtain ⟨pre, e', u, k, g1, g2⟩ := h.credentials row' hrow'
      exact ⟨pre, e', u, k, occurs_snoc g1, g2⟩
    · intro pre e' n ch' t' name ho hi
      rcases occurs_snoc_cases ho with ho | ⟨rfl, rfl⟩
      · exact h.issued pre e' n ch' t' name ho hi
      · obtain ⟨-, ⟨hd, g1⟩ | g1⟩ := hi <;> cases g1
    · intro pre e' id name' k' ho hr
      rcases occurs_snoc_cases ho with ho | ⟨rfl, rfl⟩
      · obtain ⟨u, row', g1, g2, g3, g4, g5, g6⟩ := h.rows pre e' id name' k' ho hr
        obtain ⟨e1, e2, e3⟩ := setCount_keeps c.rawId ad.signCount row'
        exact ⟨u, _, g1, g2, List.mem_map_of_mem g3, e1.trans g4, e3.trans g5, by rw [e2]; exact g6⟩
      · obtain ⟨_, _, _, _, _, _, _, _, _, g1, -⟩ := hr
        cases g1
    · intro pre e' id m ho ha
      rcases occurs_snoc_cases ho with ho | ⟨rfl, rfl⟩
      · obtain ⟨row', k, g1, g2, g3, g4⟩ := h.counts pre e' id m ho ha
        by_cases hid : row'.id = c.rawId
        · obtain rfl : row' = row := pairwise_unique h.credentialIds g1 h6 (hid.trans h7.symm)
          have := asc.le _ _ (h18 k g3)
          refine ⟨_, ad.signCount, List.mem_map_of_mem g1, (setCount_keeps _ _ _).1.trans g2, ?_, by omega⟩
          rw [setCount, if_pos (by simpa using hid)]
        · refine ⟨_, k, List.mem_map_of_mem g1, (setCount_keeps _ _ _).1.trans g2, ?_, g4⟩
          rw [setCount, if_neg (by simpa using hid)]
          exact g3
      · obtain ⟨f', t', n', c', name', g1, -, g2, g3, g4⟩ := ha
        cases g1
        obtain ⟨-, rfl, -⟩ := submits_unique h1 g2
        refine ⟨_, ad.signCount, List.mem_map_of_mem h6, (setCount_keeps _ _ _).1.trans (h7.trans g3), ?_, ?_⟩
        · rw [setCount, if_pos (by simpa using h7)]
        · rw [hasCounter_unique g4 hcount]

/-! ## Histories -/

variable {pkgs : Versions} {gs : List Guard}

theorem packageRun_snoc (evs : List Event) (e : Event) :
    packageRun pkgs app gs (evs ++ [e]) = (packageServe pkgs app gs e (packageRun pkgs app gs evs)).2 := by
  simp [packageRun, List.foldl_append]

/-- The checks do not refuse the request. -/
def Admitted (pkgs : Versions) (app : App) (gs : List Guard) (evs : List Event) (e : Event) : Prop :=
  refusedBy gs (packageRun pkgs app gs evs).1 (packageRun pkgs app gs evs).2 e = none

theorem serve_admitted {e : Event} (h : Admitted pkgs app gs evs e) :
    packageServe pkgs app gs e (packageRun pkgs app gs evs) =
      ((packageStep (pkgs (packageRun pkgs app gs evs).1) app e (packageRun pkgs app gs evs).2).1,
        (packageRun pkgs app gs evs).1 ++ [(e, (packageStep (pkgs (packageRun pkgs app gs evs).1) app e (packageRun pkgs app gs evs).2).1)],
        (packageStep (pkgs (packageRun pkgs app gs evs).1) app e (packageRun pkgs app gs evs).2).2) := by
  unfold packageServe
  rw [show refusedBy gs _ _ e = none from h]

theorem serve_refused {e : Event} (h : ¬ Admitted pkgs app gs evs e) :
    ∃ m, packageServe pkgs app gs e (packageRun pkgs app gs evs) = (.text m 400, packageRun pkgs app gs evs) := by
  unfold packageServe
  obtain ⟨m, hm⟩ := Option.ne_none_iff_exists'.mp h
  exact ⟨m, by rw [hm]⟩

theorem admitted_of_success {e : Event} (h : packageReply pkgs app gs evs e = success) :
    Admitted pkgs app gs evs e := by
  by_contra hn
  obtain ⟨m, hm⟩ := serve_refused hn
  rw [packageReply, hm] at h
  simp [success] at h

theorem serve_effect (con : ∀ log, ContractBy rule app.env (pkgs log)) (evs : List Event) (e : Event) :
    Effect rule app e (packageRun pkgs app gs evs).2 (packageReply pkgs app gs evs e)
      (packageRun pkgs app gs (evs ++ [e])).2 := by
  by_cases h : Admitted pkgs app gs evs e
  · rw [packageRun_snoc, packageReply, serve_admitted h]
    exact effect_of (con _) e _
  · obtain ⟨m, hm⟩ := serve_refused h
    rw [packageRun_snoc, packageReply, hm]
    refine .quiet .same (by simp [success]) ?_
    rintro n ⟨key, v, h⟩
    cases h

theorem ledger_run (asc : Ascending rule) (con : ∀ log, ContractBy rule app.env (pkgs log)) (evs : List Event) :
    Ledger (packageReply pkgs app gs) app evs (packageRun pkgs app gs evs).2 := by
  induction evs using List.reverseRecOn with
  | nil => exact Ledger.empty
  | append_singleton evs e ih => exact ih.step asc (serve_effect con evs e)

/-- The requests that were served are remembered with their replies. -/
theorem served_mem {evs : List Event} {e : Event} {r : Reply} :
    (e, r) ∈ (packageRun pkgs app gs evs).1 ↔
      ∃ pre, Occurs evs pre e ∧ Admitted pkgs app gs pre e ∧ packageReply pkgs app gs pre e = r := by
  induction evs using List.reverseRecOn with
  | nil =>
    constructor
    · intro h
      simp [packageRun] at h
    · rintro ⟨pre, ⟨post, h⟩, -⟩
      simp at h
  | append_singleton l a ih =>
    by_cases hp : Admitted pkgs app gs l a
    · have hr : (packageRun pkgs app gs (l ++ [a])).1 = (packageRun pkgs app gs l).1 ++
          [(a, packageReply pkgs app gs l a)] := by
        rw [packageRun_snoc, packageReply, serve_admitted hp]
      rw [hr, List.mem_append, ih, List.mem_singleton]
      constructor
      · rintro (⟨pre, h1, h2⟩ | h)
        · exact ⟨pre, occurs_snoc h1, h2⟩
        · cases h
          exact ⟨l, ⟨[], rfl⟩, hp, rfl⟩
      · rintro ⟨pre, h1, h2, rfl⟩
        rcases occurs_snoc_cases h1 with h | ⟨rfl, rfl⟩
        · exact Or.inl ⟨pre, h, h2, rfl⟩
        · exact Or.inr rfl
    · have hr : (packageRun pkgs app gs (l ++ [a])).1 = (packageRun pkgs app gs l).1 := by
        obtain ⟨m, hm⟩ := serve_refused hp
        rw [packageRun_snoc, hm]
      rw [hr, ih]
      constructor
      · rintro ⟨pre, h1, h2⟩
        exact ⟨pre, occurs_snoc h1, h2⟩
      · rintro ⟨pre, h1, h2, h3⟩
        rcases occurs_snoc_cases h1 with h | ⟨rfl, rfl⟩
        · exact ⟨pre, h, h2, h3⟩
        · exact absurd h2 hp

/-! ## The guarantees -/

/-- What was submitted in a registration that succeeds. -/
theorem package_registration (con : ∀ log, ContractBy rule app.env (pkgs log)) {f : Form} {now : Int} {n : Nat} {c : Credential}
    {name : String} (h : packageReply pkgs app gs evs (.registrationResponse f now) = success)
    (hf : Submits app f n c name) : ∃ ch u cdj ob o raw acd k key,
      ch ∈ (packageRun pkgs app gs evs).2.challenges ∧ ch.id = n ∧ now - ch.timestamp ≤ 60000 ∧
      u ∈ (packageRun pkgs app gs evs).2.users ∧ u.username = name ∧
      c.response = .attestation cdj ob ∧
      ClientSays app.env cdj "webauthn.create" ch.request (.one "http://localhost:5000") ∧
      AttObjOf app.env ob o raw ∧ o.authData.attested = some acd ∧ acd.credentialPublicKey = some k ∧
      coseKey app.env k = .ok key ∧
      ∀ row ∈ (packageRun pkgs app gs evs).2.credentials, row.id ≠ c.rawId := by
  have he := serve_effect (gs := gs) con evs (.registrationResponse f now)
  rw [h] at he
  generalize (packageRun pkgs app gs (evs ++ [.registrationResponse f now])).2 = db' at he
  generalize hr : success = r at he
  cases he with
  | quiet _ hs _ => exact absurd hr.symm hs
  | issue _ _ _ hev _ => rcases hev with ⟨_, hev⟩ | hev <;> cases hev
  | @register _ _ _ _ _ ch u _ cdj ob raw key o acd k h1 h2 h3 h4 h5 h6 h7 h8 h9 h10 h11 h12 h13 h14 =>
    obtain ⟨rfl, rfl, rfl⟩ := submits_unique hf h1
    exact ⟨ch, u, cdj, ob, o, raw, acd, k, key, h2, rfl, h3, h4, h5, h8, h9, h10, h11, h12, h13, h14⟩

/-- What was submitted in a login that succeeds. -/
theorem package_login (con : ∀ log, ContractBy rule app.env (pkgs log)) {f : Form} {now : Int}
    (h : packageReply pkgs app gs evs (.authenticationResponse f now) = success) :
    ∃ n c name ch u v row key cdj raw sig handle ad, Submits app f n c name ∧
      ch ∈ (packageRun pkgs app gs evs).2.challenges ∧ ch.id = n ∧ now - ch.timestamp ≤ 60000 ∧
      u ∈ (packageRun pkgs app gs evs).2.users ∧ u.username = name ∧
      row ∈ (packageRun pkgs app gs evs).2.credentials ∧ row.id = c.rawId ∧
      parseCoseKeyBytes app.env row.key = .ok key ∧ v ∈ (packageRun pkgs app gs evs).2.users ∧
      v.id = row.userId ∧ v.handle = u.handle ∧ c.response = .assertion cdj raw sig handle ∧
      ClientSays app.env cdj "webauthn.get" ch.request (.one "http://localhost:5000") ∧
      AuthDataOf app.env raw ad ∧ RpHashOk app.env raw "localhost" ∧ FlagSet raw 0 ∧
      SignedBy app.env key sig (raw ++ app.env.sha256 cdj) ∧
      ∀ k, row.count = some k → rule k ad.signCount := by
  have he := serve_effect (gs := gs) con evs (.authenticationResponse f now)
  rw [h] at he
  generalize (packageRun pkgs app gs (evs ++ [.authenticationResponse f now])).2 = db' at he
  generalize hr : success = r at he
  cases he with
  | quiet _ hs _ => exact absurd hr.symm hs
  | issue _ _ _ hev _ => rcases hev with ⟨_, hev⟩ | hev <;> cases hev
  | @login _ _ _ c name ch u v row key cdj raw sig handle ad h1 h2 h3 h4 h5 h6 h7 h8 h9 h10 h11 h12 h13 h14
      h15 h16 h17 h18 =>
    exact ⟨ch.id, c, name, ch, u, v, row, key, cdj, raw, sig, handle, ad, h1, h2, rfl, h3, h4, h5, h6, h7, h8,
      h9, h10, h11, h12, h13, h14, h15, h16, h17, h18⟩

/-- From the bytes that were submitted to the approval. -/
theorem approvesLogin_of {env : Env} (json : JsonLaw env) (law : JsonRefusesMark env) {k : CPK}
    {sent : Bytes → Bytes → Bytes → Prop} {acts : Approval → Prop} (holder : Holder env k sent acts)
    {cdj raw sig ch : Bytes} (hsent : sent cdj raw sig) (hsig : SignedBy env k sig (raw ++ env.sha256 cdj))
    (hsays : ClientSays env cdj "webauthn.get" ch (.one "http://localhost:5000"))
    (hrp : RpHashOk env raw "localhost") (hup : FlagSet raw 0)
    {c : Credential} {handle : Option Bytes} (hresp : c.response = .assertion cdj raw sig handle) :
    ∃ a, acts a ∧ ApprovesLogin env a c ch := by
  obtain ⟨a, ha, he⟩ := holder.unforged cdj raw sig hsent hsig
  have hlen : raw.length = a.raw.length := by
    have := congrArg List.length he
    simp only [List.length_append, holder.digest] at this
    omega
  obtain ⟨e1, e2⟩ := List.append_inj he hlen
  have e3 := holder.noCollision cdj raw sig a hsent ha e2
  subst e3
  obtain ⟨text', hb, t, d', hu, hj, l1, l2, l3, l4⟩ := holder.browser a ha
  have hcd : ClientDataOf env a.cdj ⟨a.type, text', a.origin, none⟩ :=
    ⟨d', ⟨t, hu, json _ _ hj⟩, l1, l2, l3, l4⟩
  obtain ⟨cd, ⟨b, hm, hcd'⟩, h1, h2, s, hs, h3⟩ := hsays
  have hb' : b = a.cdj := by
    generalize a.cdj = x at hm hcd
    cases hm with
    | marked b => exact absurd ⟨b, rfl⟩ (unmarked_of law hcd)
    | plain b _ => rfl
  subst hb'
  rw [← parseClientData_ok_iff] at hcd hcd'
  rw [hcd] at hcd'
  cases hcd'
  simp only [originList, List.mem_singleton] at hs
  subst hs
  rw [← urlBase64Decode_ok_iff] at hb h2
  rw [hb, Except.ok.injEq] at h2
  exact ⟨a, ha, ⟨h3, h1, h2, e1 ▸ hrp, e1 ▸ hup, sig, handle, e1 ▸ hresp⟩⟩

theorem occurs_order {evs p q : List Event} {x y : Event} (h : Occurs evs p x) (h' : Occurs evs q y) :
    Occurs q p x ∨ Occurs p q y ∨ p = q ∧ x = y := by
  obtain ⟨s, hs⟩ := h
  obtain ⟨s', hs'⟩ := h'
  rw [hs] at hs'
  rcases List.append_eq_append_iff.mp hs' with ⟨r, h1, h2⟩ | ⟨r, h1, h2⟩
  · cases r with
    | nil =>
      simp only [List.nil_append, List.cons.injEq] at h2
      exact Or.inr (Or.inr ⟨by simpa using h1.symm, h2.1⟩)
    | cons a r =>
      simp only [List.cons_append, List.cons.injEq] at h2
      obtain ⟨rfl, -⟩ := h2
      exact Or.inl ⟨r, h1⟩
  · cases r with
    | nil =>
      simp only [List.nil_append, List.cons.injEq] at h2
      exact Or.inr (Or.inr ⟨by simpa using h1, h2.1.symm⟩)
    | cons a r =>
      simp only [List.cons_append, List.cons.injEq] at h2
      obtain ⟨rfl, -⟩ := h2
      exact Or.inr (Or.inl ⟨r, h1⟩)

theorem package_once (asc : Ascending rule) (con : ∀ log, ContractBy rule app.env (pkgs log)) {pre pre' : List Event} {e e' : Event} {id : Bytes}
    {name name' : String} {k k' : CPK} (ho : Occurs evs pre e)
    (hr : RegistersBy (packageReply pkgs app gs) app pre e id name k) (ho' : Occurs evs pre' e')
    (hr' : RegistersBy (packageReply pkgs app gs) app pre' e' id name' k') :
    pre = pre' ∧ e = e' ∧ name = name' ∧ k = k' := by
  have key : ∀ {p q : List Event} {x y : Event} {l m : String} {i j : CPK}, Occurs q p x →
      RegistersBy (packageReply pkgs app gs) app p x id l i →
      ¬ RegistersBy (packageReply pkgs app gs) app q y id m j := by
    rintro p q x y l m i j ho hx ⟨f, t, n, c, cdj, ob, o, raw, acd, rfl, h1, h2, h3, -⟩
    obtain ⟨_, _, _, _, _, _, _, _, _, -, -, -, -, -, -, -, -, -, -, -, hfresh⟩ :=
      package_registration con h1 h2
    obtain ⟨-, row, -, -, g1, g2, -⟩ := (ledger_run asc con q).rows _ _ _ _ _ ho hx
    exact hfresh row g1 (g2.trans h3.symm)
  rcases occurs_order ho ho' with h | h | ⟨rfl, rfl⟩
  · exact absurd hr' (key h hr)
  · exact absurd hr (key h hr')
  · obtain ⟨-, h1, h2⟩ := registersBy_unique hr hr'
    exact ⟨rfl, rfl, h1, h2⟩

/-- A login that succeeds is with a registered credential. -/
theorem package_registered (asc : Ascending rule) (con : ∀ log, ContractBy rule app.env (pkgs log)) (codec : CodecLaws app.env) {f : Form} {now : Int}
    (h : packageReply pkgs app gs evs (.authenticationResponse f now) = success) :
    ∃ n c name pre e k cdj raw sig handle pre' e' ch t' name', Submits app f n c name ∧ Occurs evs pre e ∧
      RegistersBy (packageReply pkgs app gs) app pre e c.rawId name k ∧
      c.response = .assertion cdj raw sig handle ∧
      SignedBy app.env k sig (raw ++ app.env.sha256 cdj) ∧
      ClientSays app.env cdj "webauthn.get" ch (.one "http://localhost:5000") ∧
      RpHashOk app.env raw "localhost" ∧ FlagSet raw 0 ∧ Occurs evs pre' e' ∧
      IssuesBy (packageReply pkgs app gs) pre' e' n ch t' name' ∧ now - t' ≤ 60000 := by
  obtain ⟨n, c, name, ch, u, v, row, key, cdj, raw, sig, handle, ad, h1, h2, rfl, h4, h5, h6, h7, h8, h9, h10,
    h11, h12, h13, h14, h15, h16, h17, h18, -⟩ := package_login con h
  have led := ledger_run (gs := gs) asc con evs
  obtain ⟨pre, e, w, k, g1, g2, g3, g4, g5⟩ := led.credentials row h7
  obtain rfl : w = v := user_unique led.userIds g2 h10 (g3.trans h11.symm)
  obtain rfl : w = u := led.handle_unique g2 h5 h12
  obtain ⟨pre', e', u', p1, -, -, p2⟩ := led.challenges ch h2
  have hd : ∃ d, CoseKeyOf d k := by
    obtain ⟨_, _, _, _, _, _, _, _, _, -, -, -, -, -, e1, e2, e3⟩ := g4
    exact attested_key_dict e1 e2 e3
  have hkey := C27_stored_key codec (hd.imp fun _ => parseCoseKeyDict_ok_iff.mpr) g5
  rw [h9] at hkey
  cases hkey
  exact ⟨ch.id, c, name, pre, e, k, cdj, raw, sig, handle, pre', e', ch.request, ch.timestamp, u'.username, h1,
    g1, h6 ▸ h8 ▸ g4, h13, signedBy_asStored.mp h18, h14, h16, h17, p1, p2, h4⟩

theorem package_increasing (asc : Ascending rule) (con : ∀ log, ContractBy rule app.env (pkgs log)) {pre : List Event} {e e' : Event} {id : Bytes}
    {m m' : Nat} (ho : Occurs evs pre e) (h : AuthenticatesBy (packageReply pkgs app gs) app pre e id m)
    (h' : AuthenticatesBy (packageReply pkgs app gs) app evs e' id m') : rule m m' := by
  have led := ledger_run (gs := gs) asc con evs
  obtain ⟨row, k, h1, h2, h3, h4⟩ := led.counts pre e id m ho h
  obtain ⟨f, t, n, c, name, rfl, g1, g2, g3, g4⟩ := h'
  obtain ⟨_, _, _, ch, u, v, row', key, cdj, raw, sig, handle, ad, e1, -, -, -, -, -, e2, e3, -, -, -, -, e4, -,
    e5, -, -, -, e6⟩ := package_login con g1
  obtain ⟨-, rfl, -⟩ := submits_unique g2 e1
  obtain rfl : row = row' := pairwise_unique led.credentialIds h1 e2 (h2.trans (g3.symm.trans e3.symm))
  rw [hasCounter_unique g4 ⟨cdj, raw, sig, handle, e4, (authDataOf_head e5).2.2.2⟩]
  exact asc.down _ _ _ (e6 k h3) h4

theorem admitted_guard {g : Guard} (hg : g ∈ gs) {e : Event} (h : Admitted pkgs app gs evs e) :
    g (packageRun pkgs app gs evs).1 (packageRun pkgs app gs evs).2 e = none :=
  List.findSome?_eq_none_iff.mp h g hg

/-- A form that leads to success was read. -/
theorem package_reads {e : Event} {f : Form} {t : Int} (he : e = .registrationResponse f t ∨ e = .authenticationResponse f t)
    (h : packageReply pkgs app gs evs e = success) {n : Nat} {c : Credential} {name : String}
    (hf : Submits app f n c name) : ∃ att ch u, (e = .registrationResponse f t → att = true) ∧
      readResponse app att f t (packageRun pkgs app gs evs).2 = .ok (c, ch, u) ∧
      (packageRun pkgs app gs evs).2.challenge (some n) = some ch ∧
      (packageRun pkgs app gs evs).2.userNamed name = some u := by
  have hp := admitted_of_success h
  rw [packageReply, serve_admitted hp] at h
  have key : ∀ att, (e = .registrationResponse f t ∧ att = true ∨ e = .authenticationResponse f t ∧ att = false) →
      ∃ ch u, readResponse app att f t (packageRun pkgs app gs evs).2 = .ok (c, ch, u) ∧
      (packageRun pkgs app gs evs).2.challenge (some n) = some ch ∧
      (packageRun pkgs app gs evs).2.userNamed name = some u := by
    intro att ha
    cases hr : readResponse app att f t (packageRun pkgs app gs evs).2 with
    | error r =>
      rw [packageStep_read ha hr] at h
      exact absurd h (readResponse_ne_success hr)
    | ok x =>
      obtain ⟨c', ch, u⟩ := x
      obtain ⟨n', name', g1, -, g2, g3, -⟩ := readResponse_ok_iff.mp hr
      obtain ⟨rfl, rfl, rfl⟩ := submits_unique hf g1
      exact ⟨ch, u, rfl, g2, g3⟩
  rcases he with rfl | rfl
  · obtain ⟨ch, u, h1⟩ := key true (Or.inl ⟨rfl, rfl⟩)
    exact ⟨true, ch, u, fun _ => rfl, h1⟩
  · obtain ⟨ch, u, h1⟩ := key false (Or.inr ⟨rfl, rfl⟩)
    exact ⟨false, ch, u, fun h => (by cases h), h1⟩

theorem package_single_use (hg : unused app ∈ gs) : SingleUse (packageReply pkgs app gs) app := by
  rintro pre e mid e' t t' n c c' name name' ⟨hs, f, he, hf⟩ ⟨hs', f', he', hf'⟩
  have hp := admitted_of_success hs
  have h := admitted_guard hg (admitted_of_success hs')
  have hform : formIn e = some f := by rcases he with rfl | rfl <;> rfl
  have hform' : formIn e' = some f' := by rcases he' with rfl | rfl <;> rfl
  simp only [unused, hform', Option.bind_some, submission_iff.mpr hf', ite_eq_right_iff, reduceCtorEq,
    imp_false, Bool.not_eq_true, List.any_eq_false] at h
  have := h (e, success) (served_mem.mpr ⟨pre, ⟨mid, rfl⟩, hp, hs⟩)
  simp [hform, submission_iff.mpr hf, succeeded_iff.mpr] at this

/-- A challenge that client data have is the only one. -/
theorem says_unique {env : Env} {cdj : Bytes} {type type' : String} {ch ch' : Bytes} {e e' : ExpectedOrigin}
    (h : ClientSays env cdj type ch e) (h' : ClientSays env cdj type' ch' e') : ch = ch' := by
  obtain ⟨cd, ⟨b, hm, h1⟩, -, h2, -⟩ := h
  obtain ⟨cd', ⟨b', hm', h1'⟩, -, h2', -⟩ := h'
  obtain rfl : b = b' := (withoutMark_iff.mpr hm).symm.trans (withoutMark_iff.mpr hm')
  rw [← parseClientData_ok_iff] at h1 h1'
  rw [h1] at h1'
  cases h1'
  rw [← urlBase64Decode_ok_iff] at h2 h2'
  rw [h2] at h2'
  exact Except.ok.inj h2'

/-- Two logins with a credential were not approved at once. -/
theorem package_distinct (asc : Ascending rule) (hone : (∀ n : Nat, ¬ rule n n) ∨ unused app ∈ gs)
    (con : ∀ log, ContractBy rule app.env (pkgs log)) {pre : List Event} {f f' : Form} {t t' : Int} {n n' : Nat}
    {c c' : Credential} {name name' : String} {a : Approval} {ch ch' : Bytes}
    (ho : Occurs evs pre (.authenticationResponse f t))
    (h : packageReply pkgs app gs pre (.authenticationResponse f t) = success) (hf : Submits app f n c name)
    (h' : packageReply pkgs app gs evs (.authenticationResponse f' t') = success)
    (hf' : Submits app f' n' c' name') (hid : c.rawId = c'.rawId) (ha : ApprovesLogin app.env a c ch)
    (ha' : ApprovesLogin app.env a c' ch') : False := by
  obtain ⟨_, _, _, row, _, _, _, _, cdj, raw, _, _, ad, g1, g2, rfl, -, -, -, -, -, -, -, -, -, g3, g4, g5, -⟩ :=
    package_login con h
  obtain ⟨rfl, rfl, rfl⟩ := submits_unique hf g1
  obtain ⟨_, _, _, row', _, _, _, _, cdj', raw', _, _, ad', e1, e2, rfl, -, -, -, -, -, -, -, -, -, e3, e4, e5, -⟩ :=
    package_login con h'
  obtain ⟨rfl, rfl, rfl⟩ := submits_unique hf' e1
  obtain ⟨_, _, r1⟩ := ha.response
  obtain ⟨_, _, r2⟩ := ha'.response
  have c1 : HasCounter c ad.signCount := ⟨_, _, _, _, g3, (authDataOf_head g5).2.2.2⟩
  have c2 : HasCounter c' ad'.signCount := ⟨_, _, _, _, e3, (authDataOf_head e5).2.2.2⟩
  rw [r1] at g3
  rw [r2] at e3
  cases g3
  cases e3
  rcases hone with hone | hone
  · have := package_increasing asc con (gs := gs) (id := c'.rawId) ho ⟨f, t, _, c, _, rfl, h, hf, hid, c1⟩
      ⟨f', t', _, c', _, rfl, h', hf', rfl, c2⟩
    rw [← parseAuthenticatorData_ok_iff] at g5 e5
    rw [g5] at e5
    cases e5
    exact hone _ this
  · obtain ⟨p, x, u, h1, -, -, h2⟩ := (ledger_run (gs := gs) asc con pre).challenges row g2
    obtain ⟨v, -, -, h3⟩ := (ledger_run (gs := gs) asc con evs).issued p x _ _ _ _ (by
      obtain ⟨post, rfl⟩ := ho
      obtain ⟨mid, rfl⟩ := h1
      exact ⟨mid ++ .authenticationResponse f t :: post, by simp⟩) h2
    have hrow := pairwise_unique (ledger_run (gs := gs) asc con evs).requests h3 e2 (says_unique g4 e4)
    have hn := congrArg Challenge.id hrow
    change row.id = row'.id at hn
    rw [← hn] at hf'
    obtain ⟨mid, rfl⟩ := ho
    exact package_single_use hone pre _ mid _ t t' _ _ _ _ _ ⟨h, f, Or.inr rfl, hf⟩ ⟨h', f', Or.inr rfl, hf'⟩

/-- Whatever packages with the contract are installed one after the other, and whatever checks
refuse requests, the guarantees of the application hold, if the rule lets no counter follow itself or
challenges are used once. -/
theorem upheld_by (asc : Ascending rule) (hone : (∀ n : Nat, ¬ rule n n) ∨ unused app ∈ gs)
    (con : ∀ log, ContractBy rule app.env (pkgs log)) (codec : CodecLaws app.env) (json : JsonLaw app.env)
    (law : JsonRefusesMark app.env) : UpheldBy rule (packageReply pkgs app gs) app := by
  have approved : ∀ evs pre e f now n c name name' k acts,
      Holder app.env k (Sent app (evs ++ [.authenticationResponse f now])) acts →
      Occurs evs pre e → RegistersBy (packageReply pkgs app gs) app pre e c.rawId name' k →
      packageReply pkgs app gs evs (.authenticationResponse f now) = success → Submits app f n c name →
      name' = name ∧ ∃ a pre' e' ch t' name'', acts a ∧ ApprovesLogin app.env a c ch ∧
        Occurs evs pre' e' ∧ IssuesBy (packageReply pkgs app gs) pre' e' n ch t' name'' ∧ now - t' ≤ 60000 := by
    intro evs pre e f now n c name name' k acts holder ho hr h hf
    obtain ⟨_, _, _, pre', e', k', cdj, raw, sig, handle, pre2, e2, ch, t2, name2, g1, g2, g3, g4, g5, g6, g7,
      g8, g9, g10, g11⟩ := package_registered asc con codec h
    obtain ⟨rfl, rfl, rfl⟩ := submits_unique hf g1
    obtain ⟨-, -, rfl, rfl⟩ := package_once asc con ho hr g2 g3
    have hsent : Sent app (evs ++ [.authenticationResponse f now]) cdj raw sig :=
      ⟨f, now, n, c, name', handle, by simp, hf, g4⟩
    obtain ⟨a, ha, hap⟩ := approvesLogin_of json law holder hsent g5 g6 g7 g8 g4
    exact ⟨rfl, a, pre2, e2, ch, t2, name2, ha, hap, g9, g10, g11⟩
  refine ⟨?_, ?_, ?_, ?_, approved, ?_⟩
  · rintro evs e t n c name ⟨hs, f, rfl | rfl, hf⟩
    · obtain ⟨ch, u, cdj, ob, o, raw, acd, k, key, h1, rfl, h3, -, -, h4, h5, -⟩ := package_registration con hs hf
      obtain ⟨pre', e', u', p1, -, -, p2⟩ := (ledger_run asc con evs).challenges ch h1
      exact ⟨pre', e', ch.request, ch.timestamp, u'.username, p1, p2, h3, by rw [h4]; exact h5⟩
    · obtain ⟨_, _, _, ch, u, v, row, key, cdj, raw, sig, handle, ad, g1, g2, rfl, g4, -, -, -, -, -, -, -, -, g5,
        g6, -⟩ := package_login con hs
      obtain ⟨rfl, rfl, rfl⟩ := submits_unique hf g1
      obtain ⟨pre', e', u', p1, -, -, p2⟩ := (ledger_run asc con evs).challenges ch g2
      exact ⟨pre', e', ch.request, ch.timestamp, u'.username, p1, p2, g4, by rw [g5]; exact g6⟩
  · intro evs f now h
    obtain ⟨n, c, name, pre, e, k, cdj, raw, sig, handle, _, _, _, _, _, h1, h2, h3, h4, h5, -⟩ :=
      package_registered asc con codec h
    exact ⟨n, c, name, pre, e, k, cdj, raw, sig, handle, h1, h2, h3, h4, h5⟩
  · intro evs pre pre' e e' id name name' k k' h1 h2 h3 h4
    exact package_once asc con h1 h2 h3 h4
  · intro evs pre e e' id m m' h1 h2 h3
    exact package_increasing asc con h1 h2 h3
  · intro evs pre e id name k acts holder ho hr
    refine oneEach_distinct ?_ ?_ ?_ ?_ ho hr
    · intro evs f now h
      obtain ⟨n, c, name, pre, e, k, -, -, -, -, -, -, -, -, -, h1, h2, h3, -⟩ := package_registered asc con codec h
      exact ⟨n, c, name, pre, e, k, h1, h2, h3⟩
    · intro evs pre pre' e e' id name name' k k' h1 h2 h3 h4
      exact package_once asc con h1 h2 h3 h4
    · intro evs pre f f' t t' n n' c c' name1 name2 a ch ch' ho a2 a3 b2 b3 hid a5 b5
      exact package_distinct asc hone con ho a2 a3 b2 b3 hid a5 b5
    · rintro evs' f now n c name' ⟨post, hp⟩ ho' rfl h hf
      have holder' : Holder app.env k (Sent app (evs' ++ [.authenticationResponse f now])) acts := by
        refine holder_mono holder ?_
        rintro cdj raw sig ⟨f', t', n', c', name'', handle, hm, hrest⟩
        exact ⟨f', t', n', c', name'', handle, by rw [← hp]; exact List.mem_append_left _ hm, hrest⟩
      obtain ⟨-, a, _, _, ch, _, _, h1, h2, -⟩ := approved evs' pre e f now n c name' name k acts holder' ho' hr h hf
      exact ⟨a, ch, h1, h2⟩

theorem above_ascending : Ascending Above where
  le := by intro n c h; exact Int.le_of_lt h
  down := by intro m n c h hm; exact Int.lt_of_le_of_lt hm h

theorem above_irrefl (n : Nat) : ¬ Above n n := Int.lt_irrefl _

/-- C97: whatever packages with the contract are installed one after the other, and whatever checks
refuse requests, the guarantees of the application hold. -/
theorem C97_guarantees (con : ∀ log, Contract app.env (pkgs log)) (codec : CodecLaws app.env) (json : JsonLaw app.env)
    (law : JsonRefusesMark app.env) (gs : List Guard) : Upheld (packageReply pkgs app gs) app :=
  upheld_by above_ascending (Or.inl above_irrefl) con codec json law

/-! ## With the checks of the application -/

theorem package_user_bound (asc : Ascending rule) (con : ∀ log, ContractBy rule app.env (pkgs log)) (hg : ownChallenge app ∈ gs) :
    UserBound (packageReply pkgs app gs) app := by
  rintro evs e t n c name pre e' ch t' name' ⟨hs, f, he, hf⟩ ho hi
  have hform : formIn e = some f := by rcases he with rfl | rfl <;> rfl
  have led := ledger_run (gs := gs) asc con evs
  obtain ⟨v, hv1, hv2, hv3⟩ := led.issued _ _ _ _ _ _ ho hi
  obtain ⟨-, row, u, -, -, g2, g3⟩ := package_reads he hs hf
  have hpass := admitted_guard hg (admitted_of_success hs)
  simp only [ownChallenge, hform, Option.bind_some, submission_iff.mpr hf, g2, g3, ite_eq_left_iff,
    reduceCtorEq, imp_false, not_not] at hpass
  obtain ⟨h1, h2⟩ := challenge_some g2
  obtain ⟨h3, h4⟩ := userNamed_some g3
  obtain ⟨i, hi'⟩ := List.mem_iff_getElem?.mp h1
  obtain ⟨j, hj⟩ := List.mem_iff_getElem?.mp hv3
  have h5 := led.challengeIds _ _ hi'
  have h6 := led.challengeIds _ _ hj
  obtain rfl := Option.some.inj h2
  obtain rfl : i = j := by
    simp only at h6
    omega
  rw [hi', Option.some.injEq] at hj
  have h7 : row.userId = v.id := congrArg Challenge.userId hj
  rw [← hv2, ← h4]
  exact congrArg User.username (user_unique led.userIds hv1 h3 (h7.symm.trans hpass))

/-- With `unowned`, a second registration under a name does not succeed. -/
theorem package_owned (asc : Ascending rule) (con : ∀ log, ContractBy rule app.env (pkgs log)) (hg : unowned app ∈ gs) {pre : List Event}
    {e e' : Event} {id id' : Bytes} {name : String} {k k' : CPK} (ho : Occurs evs pre e)
    (hr : RegistersBy (packageReply pkgs app gs) app pre e id name k) :
    ¬ RegistersBy (packageReply pkgs app gs) app evs e' id' name k' := by
  rintro ⟨f, t, n, c, cdj, ob, o, raw, acd, rfl, g1, g2, -⟩
  have led := ledger_run (gs := gs) asc con evs
  obtain ⟨u, row, h1, h2, h3, -, h4, -⟩ := led.rows _ _ _ _ _ ho hr
  obtain ⟨att, ch, u', ha, hread, -, hu⟩ := package_reads (Or.inl rfl) g1 g2
  obtain rfl := ha rfl
  obtain ⟨h5, h6⟩ := userNamed_some hu
  obtain rfl : u' = u := pairwise_unique led.names h5 h1 (h6.trans h2.symm)
  have hpass := admitted_guard hg (admitted_of_success g1)
  have : taken app (.registrationResponse f t) (packageRun pkgs app gs evs).2 = true := by
    simp only [taken, hread, List.any_eq_true, beq_iff_eq]
    exact ⟨row, h3, h4⟩
  simp [unowned, this] at hpass

theorem admitted_registering {good : Credential → AttestedCredentialData → Bool} {m : String}
    (hg : registering app good m ∈ gs) {evs : List Event} {f : Form} {t : Int}
    (hp : Admitted pkgs app gs evs (.registrationResponse f t)) {n : Nat} {c : Credential} {name : String}
    (hf : Submits app f n c name) {cdj ob raw : Bytes} {o : AttestationObject}
    {acd : AttestedCredentialData} (hc : c.response = .attestation cdj ob)
    (ho : AttObjOf app.env ob o raw) (ha : o.authData.attested = some acd) : good c acd = true := by
  have h := admitted_guard hg hp
  simpa only [registering, submission_iff.mpr hf, Option.bind_some,
    attestedData_iff.mpr ⟨cdj, ob, o, raw, hc, ho, ha, rfl⟩, ite_eq_left_iff, Bool.not_eq_true,
    reduceCtorEq, imp_false, Bool.not_eq_false] using h

theorem package_counter_above (con : ∀ log, ContractBy rule app.env (pkgs log)) (hg : aboveInitial app ∈ gs) :
    CounterAbove (packageReply pkgs app gs) app := by
  rintro evs pre e e' id m k ho ⟨f, t, n, c, name, rfl, hs, hf, rfl, hc⟩
    ⟨f', t', n', c', name', rfl, hs', hf', hid, hc'⟩ hm
  have hp := admitted_of_success hs
  have h := admitted_guard hg (admitted_of_success hs')
  obtain ⟨_, _, _, _, _, _, _, _, _, _, _, _, ad, e1, -, -, -, -, -, -, -, -, -, -, -, e2, -, e3, -⟩ :=
    package_login con hs'
  obtain ⟨-, rfl, -⟩ := submits_unique hf' e1
  have hcount : assertedCount app.env c' = some k := by
    rw [assertedCount_of e2 e3, hasCounter_unique hc' ⟨_, _, _, _, e2, (authDataOf_head e3).2.2.2⟩]
  simp only [aboveInitial, submission_iff.mpr hf', Option.bind_some, hcount,
    ite_eq_right_iff, reduceCtorEq, imp_false, Bool.not_eq_true, List.any_eq_false] at h
  have := h _ (served_mem.mpr ⟨pre, ho, hp, hs⟩)
  obtain ⟨ch, u, cdj, ob, o, raw, acd, k', key, -, -, -, -, -, h1, -, h2, h3, -⟩ := package_registration con hs hf
  have e1 : o.authData.signCount = m := hasInitialCounter_unique (hasInitialCounter_of h1 h2) hc
  simp only [succeeded_iff.mpr, submission_iff.mpr hf, Option.any_some, hid, BEq.rfl, Bool.true_and] at this
  rw [attestedData_iff.mpr ⟨cdj, ob, o, raw, h1, h2, h3, e1⟩] at this
  simpa [hm] using this

/-- What a package with the strict contract registers. -/
theorem package_attests {algs : List Alg} (con : StrictContractBy rule app.env algs (pkgs (packageRun pkgs app gs evs).1)) {f : Form} {t : Int} {n : Nat}
    {c : Credential} {name : String} (h : packageReply pkgs app gs evs (.registrationResponse f t) = success)
    (hf : Submits app f n c name) {cdj ob raw : Bytes} {o : AttestationObject}
    (hc : c.response = .attestation cdj ob) (ho : AttObjOf app.env ob o raw) :
    RawIdAttests c o.authData ∧ AskedFor algs o.authData := by
  obtain ⟨att, ch, u, ha, hread, -⟩ := package_reads (Or.inl rfl) h hf
  obtain rfl := ha rfl
  have hp := admitted_of_success h
  rw [packageReply, serve_admitted hp] at h
  cases hh : (pkgs (packageRun pkgs app gs evs).1).attestation (registrar app.env) (attestationArgs c ch u) (packageRun pkgs app gs evs).2 with
  | mk r db' =>
    rw [packageStep_registration hread hh] at h
    have hr := conclude_success.mp h
    subst hr
    exact con.attests _ _ _ _ cdj ob o raw hh hc ho

/-- With packages that have the strict contract and the checks of the application, whatever
others there are, everything holds that is false of the application today. -/
theorem upheldStrictly_by (asc : Ascending rule) (con : ∀ log, StrictContractBy rule app.env [.ES256] (pkgs log))
    (codec : CodecLaws app.env) (json : JsonLaw app.env) (law : JsonRefusesMark app.env)
    (hgs : ∀ g ∈ appGuards app, g ∈ gs) : UpheldStrictlyBy rule (packageReply pkgs app gs) app where
  toUpheldBy := upheld_by asc (Or.inr (hgs _ (by simp [appGuards]))) (fun log => (con log).toContractBy) codec json law
  singleUse := package_single_use (hgs _ (by simp [appGuards]))
  userBound := package_user_bound asc (fun log => (con log).toContractBy) (hgs _ (by simp [appGuards]))
  ownerOnly := by
    intro evs pre e id name k acts f now n c ho hr _ holder h hf
    obtain ⟨_, _, _, pre', e', k', cdj, raw, sig, handle, _, _, ch, _, _, g1, g2, g3, g4, g5, g6, g7, g8, -⟩ :=
      package_registered asc (fun log => (con log).toContractBy) codec h
    obtain ⟨rfl, rfl, rfl⟩ := submits_unique hf g1
    have hu : unowned app ∈ gs := hgs _ (by simp [appGuards])
    have hk : k' = k := by
      rcases occurs_order g2 ho with h | h | ⟨rfl, rfl⟩
      · exact absurd hr (package_owned asc (fun log => (con log).toContractBy) hu h g3)
      · exact absurd g3 (package_owned asc (fun log => (con log).toContractBy) hu h hr)
      · exact (registersBy_unique g3 hr).2.2
    subst hk
    have hsent : Sent app (evs ++ [.authenticationResponse f now]) cdj raw sig :=
      ⟨f, now, n, c, name, handle, by simp, hf, g4⟩
    obtain ⟨a, ha, hap⟩ := approvesLogin_of json law holder hsent g5 g6 g7 g8 g4
    exact ⟨a, ch, ha, hap⟩
  attestedId := by
    intro evs f t n c name cdj ob o raw acd h hf hc ho ha
    obtain ⟨acd', h1, h2⟩ := (package_attests (con _) h hf hc ho).1
    rw [ha] at h1
    cases h1
    exact h2.symm
  requested := by
    rintro evs e id name k ⟨f, t, n, c, cdj, ob, o, raw, acd, rfl, h1, h2, -, h4, h5, h6, h7⟩
    obtain ⟨acd', k', g1, g2, ⟨alg, g3, g4⟩, -⟩ := (package_attests (con _) h1 h2 h4 h5).2
    rw [h6] at g1
    cases g1
    rw [h7] at g2
    cases g2
    rw [List.mem_singleton] at g3
    exact g3 ▸ g4
  profile := by
    rintro evs e id name k ⟨f, t, n, c, cdj, ob, o, raw, acd, rfl, h1, h2, -, h4, h5, h6, h7⟩
    obtain ⟨acd', k', g1, g2, -, g3⟩ := (package_attests (con _) h1 h2 h4 h5).2
    rw [h6] at g1
    cases g1
    rw [h7] at g2
    cases g2
    exact g3
  longId := by
    rintro evs e id name k ⟨f, t, n, c, cdj, ob, o, raw, acd, rfl, h1, h2, rfl, h4, h5, h6, h7⟩
    have hl : longId app ∈ gs := hgs _ (by simp [appGuards])
    simpa using admitted_registering hl (admitted_of_success h1) h2 h4 h5 h6
  above := package_counter_above (fun log => (con log).toContractBy) (hgs _ (by simp [appGuards]))

/-- C97: with packages that have the strict contract and the checks of the application, whatever
others there are, everything holds that is false of the application today. -/
theorem C97_strong (con : ∀ log, StrictContract app.env [.ES256] (pkgs log)) (codec : CodecLaws app.env)
    (json : JsonLaw app.env) (law : JsonRefusesMark app.env) (hgs : ∀ g ∈ appGuards app, g ∈ gs) :
    UpheldStrictly (packageReply pkgs app gs) app :=
  upheldStrictly_by above_ascending con codec json law hgs

/-! ## Packages with the contract -/

theorem says_of_accepted {env : Env} {cdj : Bytes} {type : String} {ch : Bytes} {e : ExpectedOrigin}
    {tb : Option TokenBinding} (h : ClientAccepted env cdj type ch e tb) : ClientSays env cdj type ch e := by
  obtain ⟨cd, h1, h2, h3, h4, -⟩ := h
  exact ⟨cd, h1, h2, h3, h4⟩

theorem write_error {w : Py (Option String)} {e : Exc} (h : finalise (checkWrite w) = .error e) : w ≠ .ok none := by
  rintro rfl
  cases h

/-- C96: the package has the contract. -/
theorem C96_code {env : Env} (law : JsonRefusesMark env) : Contract env (codePackage env) where
  registers := by
    intro σ reg a s s' h
    obtain ⟨-, o, raw, ⟨cdj, ob, h1, h2, h3, -⟩, -, h5⟩ := attestation_accepts.mp h
    exact ⟨cdj, ob, o, raw, _, _, h1, says_of_accepted (clientAccepted_of law h2), h3, h5⟩
  registersNot := by
    intro σ reg a s s' e h
    simp only [codePackage, handleAttestation] at h
    split at h
    · exact Or.inl (Prod.mk.inj h).2.symm
    · rename_i record _
      obtain ⟨h1, rfl⟩ := Prod.mk.inj h
      exact Or.inr ⟨record, _, rfl, write_error h1⟩
  logsIn := by
    intro σ reg a s s' h
    obtain ⟨-, -, cd, s1, user, rp, ad, h1, ⟨cdj, raw, sig, handle, h2, h3, h4, h5, ⟨h6, h7, h8, -⟩, h9, h10⟩, h11⟩ :=
      assertion_accepts.mp h
    exact ⟨cd, s1, user, rp, ad, cdj, raw, sig, handle, h1, h2, h3, h4, says_of_accepted (clientAccepted_of law h5),
      h6, h7, h8, h9, h10, h11⟩
  logsInNot := by
    intro σ reg a s s' e h
    simp only [codePackage, handleAssertion] at h
    split at h
    · exact Or.inl (Prod.mk.inj h).2.symm
    · split at h
      · exact Or.inr (Or.inl (Prod.mk.inj h).2.symm)
      · split at h
        · exact Or.inr (Or.inl (Prod.mk.inj h).2.symm)
        · rename_i record _
          obtain ⟨h1, rfl⟩ := Prod.mk.inj h
          exact Or.inr (Or.inr ⟨record, _, rfl, write_error h1⟩)

/-- C96: the package with the repairs has the strict contract. -/
theorem C96_repaired {env : Env} {p : Whole.Policy} (hid : p.appId = none) :
    StrictContract env p.algs (repairedPackage env p) where
  registers := by
    intro σ reg a s s' h
    obtain ⟨o, t, path, ⟨-, ⟨cdj, ob, raw, h1, h2, h3, -⟩, -⟩, h5⟩ := C89_registration_exact.mp h
    exact ⟨cdj, ob, o, raw, _, _, h1, says_of_accepted h2, h3, h5⟩
  registersNot := by
    intro σ reg a s s' e h
    simp only [repairedPackage, Whole.handleAttestation] at h
    split at h
    · exact Or.inl (Prod.mk.inj h).2.symm
    · rename_i record _
      obtain ⟨h1, rfl⟩ := Prod.mk.inj h
      exact Or.inr ⟨record, _, rfl, write_error h1⟩
  logsIn := by
    intro σ reg a s s' h
    obtain ⟨cd, s1, user, rp, ad, h1, ⟨-, -, h4, ⟨cdj, raw, sig, handle, id, h2, h3, h5, h12, ⟨h6, h7, h8, -⟩, h9, h10⟩, -⟩,
      h11⟩ := C89_login_exact.mp h
    have : id = rp.id := by
      cases h12 with
      | rp _ => rfl
      | appId _ _ h => rw [hid] at h; cases h
    subst this
    exact ⟨cd, s1, user, rp, ad, cdj, raw, sig, handle, h1, h2, h3, h4, says_of_accepted h5,
      h6, h7, h8, h9, h10, h11⟩
  logsInNot := by
    intro σ reg a s s' e h
    simp only [repairedPackage, Whole.handleAssertion] at h
    split at h
    · exact Or.inl (Prod.mk.inj h).2.symm
    · split at h
      · exact Or.inr (Or.inl (Prod.mk.inj h).2.symm)
      · split at h
        · exact Or.inr (Or.inl (Prod.mk.inj h).2.symm)
        · rename_i record _
          obtain ⟨h1, rfl⟩ := Prod.mk.inj h
          exact Or.inr (Or.inr ⟨record, _, rfl, write_error h1⟩)
  attests := by
    intro σ reg a s s' cdj ob o raw h hc ho
    obtain ⟨o', t, path, ⟨-, ⟨cdj', ob', raw', h1, -, h3, -⟩, -, h6, h7, -⟩, -⟩ := C89_registration_exact.mp h
    rw [hc] at h1
    cases h1
    rw [← parseAttestationObject_ok_iff] at ho h3
    rw [ho] at h3
    cases h3
    exact ⟨h6, h7⟩

/-- C96: with the code, the application on a package is the application. -/
theorem C96_same (evs : List Event) (e : Event) :
    packageReply (fun _ => codePackage app.env) app gs evs e = guardedReply app gs evs e := by
  have h1 : ∀ e db, packageStep (codePackage app.env) app e db = step app e db := by
    intro e db
    cases e <;> rfl
  have h2 : ∀ e s, packageServe (fun _ => codePackage app.env) app gs e s = guardedStep app gs e s := by
    intro e s
    unfold packageServe guardedStep
    simp only [h1]
    rfl
  have h3 : packageRun (fun _ => codePackage app.env) app gs evs = guardedRun app gs evs := by
    unfold packageRun guardedRun
    simp only [h2]
  rw [packageReply, guardedReply, h2, h3]

/-- C96: whatever package has the contract, and whatever checks refuse requests, the guarantees of
the application hold. -/
theorem C96_guarantees (con : Contract app.env pkg) (codec : CodecLaws app.env) (json : JsonLaw app.env)
    (law : JsonRefusesMark app.env) (gs : List Guard) : Upheld (packageReply (fun _ => pkg) app gs) app :=
  C97_guarantees (fun _ => con) codec json law gs

/-- C96: with a package that has the strict contract and the checks of the application, whatever
others there are, everything holds that is false of the application today. -/
theorem C96_strong (con : StrictContract app.env [.ES256] pkg) (codec : CodecLaws app.env)
    (json : JsonLaw app.env) (law : JsonRefusesMark app.env) (hgs : ∀ g ∈ appGuards app, g ∈ gs) :
    UpheldStrictly (packageReply (fun _ => pkg) app gs) app :=
  C97_strong (fun _ => con) codec json law hgs

/-- C96: so the application with the repaired package and its own checks has all it should. -/
theorem C96_fixed (codec : CodecLaws app.env) (json : JsonLaw app.env) (law : JsonRefusesMark app.env)
    (hgs : ∀ g ∈ appGuards app, g ∈ gs) :
    UpheldStrictly (packageReply (fun _ => repairedPackage app.env appPolicy) app gs) app :=
  C97_strong (fun _ => C96_repaired (p := appPolicy) rfl) codec json law hgs

end

end WebAuthn.Flask
