import Verif.Spec.Leftout
import Verif.Props.Memory
import Verif.Props.Order
import Verif.Props.Traces

/-!
# Nobody needs an earlier login (C118)
-/

namespace WebAuthn.Flask

open WebAuthn WebAuthn.Spec WebAuthn.Props

variable {app : App}

def CountLe (b a : Option Int) : Prop := ∀ m, b = some m → ∃ n, a = some n ∧ m ≤ n

def LowerRow (a b : CredentialRow) : Prop := b.id = a.id ∧ b.key = a.key ∧ b.userId = a.userId ∧ CountLe b.count a.count

/-- The same tables, but for counters that may be lower. -/
structure Lower (db db2 : Db) : Prop where
  users : db2.users = db.users
  challenges : db2.challenges = db.challenges
  rows : List.Forall₂ LowerRow db.credentials db2.credentials

theorem CountLe.refl (a : Option Int) : CountLe a a := fun m h => ⟨m, h, le_refl m⟩

theorem CountLe.trans {a b c : Option Int} (h : CountLe a b) (h' : CountLe b c) : CountLe a c := by
  intro m hm
  obtain ⟨n, hn, hl⟩ := h m hm
  obtain ⟨k, hk, hl'⟩ := h' n hn
  exact ⟨k, hk, hl.trans hl'⟩

theorem lower_left {l l2 : List CredentialRow} (h : List.Forall₂ LowerRow l l2) {a : CredentialRow} (ha : a ∈ l) :
    ∃ b ∈ l2, LowerRow a b := by
  induction h with
  | nil => cases ha
  | cons hab _ ih =>
    rcases List.mem_cons.mp ha with rfl | ha'
    · exact ⟨_, List.mem_cons_self, hab⟩
    · obtain ⟨b, hb, hr⟩ := ih ha'
      exact ⟨b, List.mem_cons_of_mem _ hb, hr⟩

theorem lower_right {l l2 : List CredentialRow} (h : List.Forall₂ LowerRow l l2) {b : CredentialRow} (hb : b ∈ l2) :
    ∃ a ∈ l, LowerRow a b := by
  induction h with
  | nil => cases hb
  | cons hab _ ih =>
    rcases List.mem_cons.mp hb with rfl | hb'
    · exact ⟨_, List.mem_cons_self, hab⟩
    · obtain ⟨a, ha, hr⟩ := ih hb'
      exact ⟨a, List.mem_cons_of_mem _ ha, hr⟩

theorem lower_any {l l2 : List CredentialRow} (h : List.Forall₂ LowerRow l l2) (id : Bytes) :
    (l2.any fun c => c.id == id) = l.any fun c => c.id == id := by
  induction h with
  | nil => rfl
  | cons hab _ ih => rw [List.any_cons, List.any_cons, ih, hab.1]

theorem lower_filter {l l2 : List CredentialRow} (h : List.Forall₂ LowerRow l l2) (n : Nat) :
    (l2.filter fun c => c.userId == n).map CredentialRow.id = (l.filter fun c => c.userId == n).map CredentialRow.id := by
  induction h with
  | nil => rfl
  | @cons a b _ _ hab _ ih =>
    rw [List.filter_cons, List.filter_cons, hab.2.2.1]
    cases a.userId == n
    · exact ih
    · simp [ih, hab.1]

/-! ## Logins -/

/-- When a login succeeds, and what it does, for consistent tables. -/
theorem login_exactly {db : Db} (hdb : Consistent db) {f : Form} {t : Int} :
    (step app (.authenticationResponse f t) db).1 = success ↔ ∃ c ch u row cd user rp ad, Read app ForLogin f t db c ch u ∧
      row ∈ db.credentials ∧ row.id = c.rawId ∧ StoredAs app db row cd ∧
      AssertionOk app.env (LoginCall c ch u) cd user rp ad ∧ (step app (.authenticationResponse f t) db).2 =
        { db with credentials := db.credentials.map fun a =>
            if a.id = c.rawId then { a with count := some ad.signCount } else a } := by
  constructor
  · intro hs
    have h := C64_outcome app hdb (.authenticationResponse f t)
    generalize (step app (.authenticationResponse f t) db).1 = r at h hs
    generalize (step app (.authenticationResponse f t) db).2 = db' at h
    cases h with
    | loginUnread _ _ _ h => exact absurd hs (unread_fails h)
    | loginUnknown _ _ c ch u _ _ => simp [success] at hs
    | loginNoKey _ _ c ch u row e x _ _ _ _ _ _ h => exact absurd hs (told_fails h)
    | loginRefused _ _ c ch u row cd x y _ _ _ _ _ _ _ h => exact absurd hs (told_fails h)
    | loggedIn _ _ c ch u row cd user rp ad hr hrow hid hst hok =>
      exact ⟨c, ch, u, row, cd, user, rp, ad, hr, hrow, hid, hst, hok, rfl⟩
  · rintro ⟨c, ch, u, row, cd, user, rp, ad, hr, hrow, hid, hst, hok, -⟩
    obtain ⟨h, -⟩ := C64_only hdb (.loggedIn f t c ch u row cd user rp ad hr hrow hid hst hok)
    rcases h with h | ⟨_, _, _, _, _, _, h, -⟩ | ⟨_, _, _, _, _, h, -⟩
    · exact h.symm
    · cases h
    · cases h

theorem read_same {Kind : Response → Prop} {f : Form} {t : Int} {db db2 : Db} {c : Credential} {ch : Challenge} {u : User}
    (h1 : db2.users = db.users) (h2 : db2.challenges = db.challenges) (h : Read app Kind f t db c ch u) :
    Read app Kind f t db2 c ch u :=
  ⟨h.cid, h.kind, h2 ▸ h.challenge, h1 ▸ h.user, h.time⟩

/-- Only the counter of what is stored has to be below. -/
theorem assertion_recount {env : Env} {a : AssertionArgs} {cd : CredentialData} {user : UserEntity} {rp : RpEntity}
    {ad : AuthData} (h : AssertionOk env a cd user rp ad) (x : Option Int) (hx : ∀ n, x = some n → n < ad.signCount) :
    AssertionOk env a { cd with signatureCount := x } user rp ad := by
  obtain ⟨cdj, raw, sig, handle, h1, h2, h3, h4, h5, h6, -⟩ := h
  exact ⟨cdj, raw, sig, handle, h1, h2, h3, h4, h5, h6, fun n hn _ => ⟨ad.signCount, (authDataOf_head h5.1).2.2.2, hx n hn⟩⟩

theorem presented_above {env : Env} {c : Credential} {ch : Challenge} {u : User} {cd : CredentialData} {user : UserEntity}
    {rp : RpEntity} {ad : AuthData} (h : AssertionOk env (LoginCall c ch u) cd user rp ad) {n : Int}
    (hn : cd.signatureCount = some n) : n < ad.signCount := by
  have := counterOk_lt h rfl
  rw [hn] at this
  exact WithBot.coe_lt_coe.mp this

/-- A row with the same key and owner, but another counter, that is below the one presented. -/
theorem stored_recount {db db2 : Db} {row row2 : CredentialRow} {cd : CredentialData} (hu : db2.users = db.users)
    (hk : row2.key = row.key) (ho : row2.userId = row.userId) (h : StoredAs app db row cd) :
    StoredAs app db2 row2 { cd with signatureCount := row2.count } := by
  obtain ⟨d, rest, v, h1, h2, h3, h4, -, h6, h7⟩ := h
  exact ⟨d, rest, v, by rw [hk]; exact h1, h2, hu ▸ h3, h4.trans ho.symm, rfl, h6, h7⟩

theorem stored_count {db : Db} {row : CredentialRow} {cd : CredentialData} (h : StoredAs app db row cd) :
    cd.signatureCount = row.count := by
  obtain ⟨_, _, _, _, _, _, _, h, _⟩ := h
  exact h

/-- Setting a counter in one of the tables. -/
theorem lower_set {l l2 : List CredentialRow} (h : List.Forall₂ LowerRow l l2) (g g2 : CredentialRow → CredentialRow)
    (hg : ∀ a b, a ∈ l → b ∈ l2 → LowerRow a b → LowerRow (g a) (g2 b)) : List.Forall₂ LowerRow (l.map g) (l2.map g2) := by
  induction h with
  | nil => exact .nil
  | cons hab _ ih =>
    exact .cons (hg _ _ List.mem_cons_self List.mem_cons_self hab)
      (ih fun a b ha hb => hg a b (List.mem_cons_of_mem _ ha) (List.mem_cons_of_mem _ hb))

/-- With lower counters a login still succeeds. -/
theorem Lower.login {db db2 : Db} (h : Lower db db2) (hdb : Consistent db) (hdb2 : Consistent db2) {f : Form} {t : Int}
    (hs : (step app (.authenticationResponse f t) db).1 = success) :
    (step app (.authenticationResponse f t) db2).1 = success := by
  obtain ⟨c, ch, u, row, cd, user, rp, ad, hr, hrow, hid, hst, hok, -⟩ := (login_exactly hdb).mp hs
  obtain ⟨row2, hrow2, e1, e2, e3, e4⟩ := lower_left h.rows hrow
  have hok2 := assertion_recount hok row2.count fun m hm => by
    obtain ⟨n, hn, hl⟩ := e4 m hm
    exact lt_of_le_of_lt hl (presented_above hok ((stored_count hst).trans hn))
  have hst2 := stored_recount (app := app) h.users e2 e3 hst
  have hr2 := read_same (app := app) h.users h.challenges hr
  obtain ⟨hx, -⟩ := C64_only hdb2 (.loggedIn f t c ch u row2 _ user rp ad hr2 hrow2 (e1.trans hid) hst2 hok2)
  rcases hx with hx | ⟨_, _, _, _, _, _, hx, -⟩ | ⟨_, _, _, _, _, hx, -⟩
  · exact hx.symm
  · cases hx
  · cases hx

theorem read_unique {f : Form} {t : Int} {db : Db} {c c' : Credential} {ch ch' : Challenge} {u u' : User} (hdb : Consistent db)
    (h : Read app ForLogin f t db c ch u) (h' : Read app ForLogin f t db c' ch' u') : c = c' ∧ ch = ch' ∧ u = u' := by
  obtain ⟨cid, h1, h2⟩ := h.cid
  obtain ⟨cid', h1', h2'⟩ := h'.cid
  obtain ⟨e1, rfl, e3⟩ := submits_unique (readable_submits h1 h2) (readable_submits h1' h2')
  refine ⟨rfl, ?_, ?_⟩
  · have := hdb.keyed.find_challenge h.challenge
    rw [e1, hdb.keyed.find_challenge h'.challenge] at this
    exact (Option.some.inj this).symm
  · have := hdb.keyed.find_name h.user
    rw [e3, hdb.keyed.find_name h'.user] at this
    exact (Option.some.inj this).symm

/-- The counters stay lower when both tables see the login. -/
theorem Lower.step_login {db db2 : Db} (h : Lower db db2) (hdb : Consistent db) (hdb2 : Consistent db2) (f : Form) (t : Int) :
    Lower (step app (.authenticationResponse f t) db).2 (step app (.authenticationResponse f t) db2).2 := by
  by_cases hs2 : (step app (.authenticationResponse f t) db2).1 = success
  · obtain ⟨c, ch, u, row2, cd2, user, rp, ad, hr2, hrow2, hid2, hst2, hok2, hdb'⟩ := (login_exactly hdb2).mp hs2
    rw [hdb']
    by_cases hs : (step app (.authenticationResponse f t) db).1 = success
    · obtain ⟨c', ch', u', row, cd, user', rp', ad', hr, hrow, hid, hst, hok, hdb''⟩ := (login_exactly hdb).mp hs
      obtain ⟨rfl, rfl, rfl⟩ := read_unique hdb2 hr2 (read_same h.users h.challenges hr)
      rw [hdb'']
      have hc : ad'.signCount = ad.signCount := hasCounter_unique (assertionOk_counter hok) (assertionOk_counter hok2)
      refine ⟨h.users, h.challenges, lower_set h.rows _ _ fun a b _ _ hab => ?_⟩
      obtain ⟨e1, e2, e3, e4⟩ := hab
      rw [e1, hc]
      split
      · exact ⟨rfl, e2, e3, CountLe.refl _⟩
      · exact ⟨e1, e2, e3, e4⟩
    · rw [response_kept (Or.inr ⟨f, t, rfl⟩) hs]
      refine ⟨h.users, h.challenges, ?_⟩
      have := lower_set h.rows id (fun a => if a.id = c.rawId then { a with count := some (ad.signCount : Int) } else a) ?_
      · simpa using this
      · intro a b ha hb hab
        obtain ⟨e1, e2, e3, e4⟩ := hab
        simp only [id]
        split
        · next hb' =>
          refine ⟨e1, e2, e3, fun m hm => ?_⟩
          obtain rfl := Option.some.inj hm
          by_contra hno
          refine hs ((login_exactly hdb).mpr ?_)
          have hbrow : b = row2 := by
            have := hdb2.keyed.find_credential hb
            rw [hb', ← hid2, hdb2.keyed.find_credential hrow2] at this
            exact (Option.some.inj this).symm
          subst hbrow
          have hok := assertion_recount hok2 a.count fun n hn => by
            by_contra hlt
            exact hno ⟨n, hn, not_lt.mp hlt⟩
          have hst := stored_recount (app := app) (db2 := db) h.users.symm e2.symm e3.symm hst2
          have hr := read_same (app := app) (db2 := db) h.users.symm h.challenges.symm hr2
          exact ⟨c, ch, u, a, _, user, rp, ad, hr, ha, e1.symm.trans hid2, hst, hok,
            (C64_only hdb (.loggedIn f t c ch u a _ user rp ad hr ha (e1.symm.trans hid2) hst hok)).2.symm⟩
        · exact ⟨e1, e2, e3, e4⟩
  · rw [response_kept (Or.inr ⟨f, t, rfl⟩) hs2, response_kept (Or.inr ⟨f, t, rfl⟩) fun hs => hs2 (h.login hdb hdb2 hs)]
    exact h

/-- A login makes the counters of the table that sees it higher only. -/
theorem Lower.skip_login {db db2 : Db} (h : Lower db db2) (hdb : Consistent db) (f : Form) (t : Int) :
    Lower (step app (.authenticationResponse f t) db).2 db2 := by
  by_cases hs : (step app (.authenticationResponse f t) db).1 = success
  · obtain ⟨c, ch, u, row, cd, user, rp, ad, hr, hrow, hid, hst, hok, hdb'⟩ := (login_exactly hdb).mp hs
    rw [hdb']
    refine ⟨h.users, h.challenges, ?_⟩
    have := lower_set h.rows (fun a => if a.id = c.rawId then { a with count := some (ad.signCount : Int) } else a) id ?_
    · simpa using this
    · intro a b ha hb hab
      obtain ⟨e1, e2, e3, e4⟩ := hab
      simp only [id]
      split
      · next ha' =>
        obtain rfl : row = a := by
          have := hdb.keyed.find_credential ha
          rw [ha', ← hid, hdb.keyed.find_credential hrow] at this
          exact Option.some.inj this
        refine ⟨e1, e2, e3, fun m hm => ?_⟩
        obtain ⟨n, hn, hl⟩ := e4 m hm
        exact ⟨_, rfl, le_of_lt (lt_of_le_of_lt hl (presented_above hok ((stored_count hst).trans hn)))⟩
      · exact ⟨e1, e2, e3, e4⟩
  · rw [response_kept (Or.inr ⟨f, t, rfl⟩) hs]
    exact h

/-! ## Everything else -/

theorem Lower.having {db db2 : Db} (h : Lower db db2) : db2 = db.having db2.credentials := by
  obtain ⟨u, c, ch⟩ := db
  obtain ⟨u2, c2, ch2⟩ := db2
  obtain ⟨rfl, rfl, -⟩ := h
  rfl

/-- Requests for challenges do not read the counters. -/
theorem Lower.step_request {db db2 : Db} (h : Lower db db2) {e : Event} (he : e.form = none) :
    (step app e db2).1 = (step app e db).1 ∧ Lower (step app e db).2 (step app e db2).2 := by
  have hx := request_frame (app := app) (db := db) he (l := db2.credentials) fun _ u _ _ => lower_filter h.rows u.id
  rw [← h.having] at hx
  rw [hx]
  refine ⟨rfl, rfl, rfl, ?_⟩
  obtain ⟨us, cs, hs, -⟩ := request_shape (app := app) (db := db) he
  rw [hs]
  exact h.rows

theorem readResponse_same {db db2 : Db} (h1 : db2.users = db.users) (h2 : db2.challenges = db.challenges) (att : Bool) (f : Form)
    (t : Int) : readResponse app att f t db2 = readResponse app att f t db := by
  have e1 : db2.challenge = db.challenge := by
    funext n
    simp only [Db.challenge, h2]
  have e2 : db2.userNamed = db.userNamed := by
    funext n
    simp only [Db.userNamed, h1]
  simp only [readResponse, e1, e2]

/-- Nor do registrations. -/
theorem Lower.step_registration {db db2 : Db} (h : Lower db db2) (f : Form) (t : Int) :
    (step app (.registrationResponse f t) db2).1 = (step app (.registrationResponse f t) db).1 ∧
      Lower (step app (.registrationResponse f t) db).2 (step app (.registrationResponse f t) db2).2 := by
  show (registrationResponse app f t db2).1 = (registrationResponse app f t db).1 ∧
    Lower (registrationResponse app f t db).2 (registrationResponse app f t db2).2
  unfold registrationResponse
  rw [readResponse_same h.users h.challenges]
  cases readResponse app true f t db with
  | error r => exact ⟨rfl, h⟩
  | ok x =>
    obtain ⟨c, ch, u⟩ := x
    simp only
    unfold handleAttestation
    cases attestationChecks app.env (attestationArgs c ch u) with
    | error e => exact ⟨rfl, h⟩
    | ok r =>
      have key : (registerAttestation app.env r db2).1 = (registerAttestation app.env r db).1 ∧
          Lower (registerAttestation app.env r db).2 (registerAttestation app.env r db2).2 := by
        have e1 : db2.userOfHandle r.user.id = db.userOfHandle r.user.id := by
          simp only [Db.userOfHandle, h.users]
        unfold registerAttestation
        rw [e1, lower_any h.rows]
        cases r.att.authData.attested with
        | none => exact ⟨rfl, h⟩
        | some acd =>
          cases db.userOfHandle r.user.id with
          | none => exact ⟨rfl, h⟩
          | some v =>
            simp only
            cases acd.credentialPublicKey with
            | none => exact ⟨rfl, h⟩
            | some k =>
              simp only
              cases coseKey app.env k with
              | error e => exact ⟨rfl, h⟩
              | ok key =>
                simp only
                split
                · exact ⟨rfl, h⟩
                · exact ⟨rfl, h.users, h.challenges,
                    List.rel_append h.rows (.cons ⟨rfl, rfl, rfl, CountLe.refl _⟩ .nil)⟩
      simp only [registrar]
      exact ⟨by rw [key.1], key.2⟩

theorem leavesOut_lower {evs evs' : List Event} (h : LeavesOut evs evs') : Lower (run app evs) (run app evs') := by
  induction h with
  | nil => exact ⟨rfl, rfl, .nil⟩
  | keep evs evs' e _ ih =>
    rw [run_snoc, run_snoc]
    cases e with
    | registrationRequest n hd ch t => exact (ih.step_request rfl).2
    | authenticationRequest n ch t => exact (ih.step_request rfl).2
    | registrationResponse f t => exact (ih.step_registration f t).2
    | authenticationResponse f t =>
      exact ih.step_login (C64_consistent_history app evs) (C64_consistent_history app evs') f t
  | skip evs evs' f t _ ih =>
    rw [run_snoc]
    exact ih.skip_login (C64_consistent_history app evs) f t

/-! ## The claim -/

/-- C118: a login that succeeds, succeeds without the logins before it too. -/
theorem C118_logins {app : App} {evs evs' : List Event} (h : LeavesOut evs evs') {f : Form} {t : Int}
    (hs : reply app evs (.authenticationResponse f t) = success) : reply app evs' (.authenticationResponse f t) = success :=
  (leavesOut_lower h).login (C64_consistent_history app evs) (C64_consistent_history app evs') hs

/-- C118: and all other requests are answered the same without them. -/
theorem C118_others {app : App} {evs evs' : List Event} (h : LeavesOut evs evs') {e : Event}
    (he : ∀ f t, e ≠ .authenticationResponse f t) : reply app evs' e = reply app evs e := by
  have hl := leavesOut_lower (app := app) h
  cases e with
  | registrationRequest n hd ch t => exact (hl.step_request rfl).1
  | authenticationRequest n ch t => exact (hl.step_request rfl).1
  | registrationResponse f t => exact (hl.step_registration f t).1
  | authenticationResponse f t => exact absurd rfl (he f t)

/-- C118: so whatever succeeds, succeeds without them. -/
theorem C118_success {app : App} {evs evs' : List Event} (h : LeavesOut evs evs') {e : Event} (hs : reply app evs e = success) :
    reply app evs' e = success := by
  by_cases he : ∃ f t, e = .authenticationResponse f t
  · obtain ⟨f, t, rfl⟩ := he
    exact C118_logins h hs
  · rw [C118_others h fun f t hx => he ⟨f, t, hx⟩]
    exact hs

theorem LeavesOut.refl (evs : List Event) : LeavesOut evs evs := by
  induction evs using List.reverseRecOn with
  | nil => exact .nil
  | append_singleton evs e ih => exact .keep _ _ e ih

/-- C118: of two logins in a row with the same credential the application forgets the first. -/
theorem C118_forgets {app : App} {evs : List Event} {e e' : Event} {id : Bytes} {m m' : Int} (h : Authenticates app evs e id m)
    (h' : Authenticates app (evs ++ [e]) e' id m') : SameFacts app (evs ++ [e, e']) (evs ++ [e']) := by
  refine C117_forgets h h' ?_
  obtain ⟨f, t, -, -, -, -, rfl, -⟩ := h
  obtain ⟨f', t', n, c, name, k, rfl, hs, hrest⟩ := h'
  exact ⟨f', t', n, c, name, k, rfl, C118_logins (.skip evs evs f t (.refl evs)) hs, hrest⟩

end WebAuthn.Flask
