import Verif.Props.Accounts
import Verif.Props.FlaskHonest

/-!
# Accounts that are not deleted are served (C108)
-/

namespace WebAuthn.Flask

open WebAuthn WebAuthn.Spec WebAuthn.Props

/-! ## Names that are gone -/

section
variable {app : App} {drop : String → Db → Db}

/-- The user is deleted. -/
def DropsUser (drop : String → Db → Db) : Prop :=
  ∀ name db, ∀ u ∈ (drop name db).users, u ∈ db.users ∧ u.username ≠ name

theorem dropsUser_user : DropsUser dropUser := by
  intro name db u hu
  simpa [dropUser] using hu

theorem dropsUser_account : DropsUser dropAccount := by
  intro name db u hu
  unfold dropAccount at hu
  cases hn : db.userNamed name with
  | none =>
    simp only [hn] at hu
    have := List.find?_eq_none.mp hn u hu
    exact ⟨hu, by simpa using this⟩
  | some v =>
    simp only [hn] at hu
    simpa using hu

theorem appliedAt_snoc {ops : List AccountOp} {i : Nat} {name : String} (op : AccountOp) (h : AppliedAt ops i name) :
    AppliedAt (ops ++ [op]) i name := by
  obtain ⟨hd, ch, t, h⟩ := h
  exact ⟨hd, ch, t, by rw [List.getElem?_append_left (List.getElem?_eq_some_iff.mp h).1, h]⟩

theorem applied_run (hd : DropsUser drop) (ops : List AccountOp) : ∀ u ∈ (keyedRun app drop ops).users,
    ∃ i, AppliedAt ops i u.username ∧ ¬ DeletedAfter ops i u.username := by
  induction ops using List.reverseRecOn with
  | nil => simp [keyedRun]
  | append_singleton ops op ih =>
    intro u hu
    rw [keyedRun_snoc] at hu
    cases op with
    | delete name =>
      obtain ⟨h1, h2⟩ := hd name _ u hu
      obtain ⟨i, h3, h4⟩ := ih u h1
      refine ⟨i, appliedAt_snoc _ h3, fun h => ?_⟩
      rcases deletedAfter_snoc h with h | h
      · exact h4 h
      · cases h
        exact h2 rfl
    | request e =>
      have keep : u ∈ (keyedRun app drop ops).users → ∃ i, AppliedAt (ops ++ [.request e]) i u.username ∧
          ¬ DeletedAfter (ops ++ [.request e]) i u.username := by
        intro h
        obtain ⟨i, h3, h4⟩ := ih u h
        refine ⟨i, appliedAt_snoc _ h3, fun h => ?_⟩
        rcases deletedAfter_snoc h with h | h
        · exact h4 h
        · cases h
      cases e with
      | registrationRequest name hdl ch t =>
        cases name with
        | none => exact keep hu
        | some name =>
          have hu' : u ∈ (findOrInsertUser (keyedRun app drop ops) name hdl).2.users := by
            simp only [keyedStep] at hu
            rcases hf : findOrInsertUser (keyedRun app drop ops) name hdl with ⟨_ | v, db⟩
            · simpa only [hf] using hu
            · simp only [hf] at hu
              rcases insertChallenge_cases db ch t v.id with ha | ⟨-, ha⟩ <;> simpa only [ha] using hu
          rcases insertUser_cases (keyedRun app drop ops) name hdl with ⟨v, -, -, hf⟩ | hf | ⟨-, hf⟩
          · rw [hf] at hu'
            exact keep hu'
          · rw [hf] at hu'
            exact keep hu'
          · rw [hf] at hu'
            rcases List.mem_append.mp hu' with h | h
            · exact keep h
            · rw [List.mem_singleton] at h
              subst h
              exact ⟨ops.length, ⟨hdl, ch, t, at_last _ _⟩, not_deleted_last _ _ _⟩
      | authenticationRequest name ch t =>
        refine keep ?_
        cases name with
        | none => exact hu
        | some name =>
          simp only [keyedStep] at hu
          cases hn : (keyedRun app drop ops).userNamed name with
          | none => simpa only [hn] using hu
          | some v =>
            simp only [hn] at hu
            rcases insertChallenge_cases (keyedRun app drop ops) ch t v.id with ha | ⟨-, ha⟩ <;>
              simpa only [ha] using hu
      | registrationResponse f t =>
        refine keep ?_
        have hu : u ∈ (registrationResponse app f t (keyedRun app drop ops)).2.users := hu
        cases hr : readResponse app true f t (keyedRun app drop ops) with
        | error r => simpa only [registrationResponse, hr] using hu
        | ok x =>
          obtain ⟨c, ch, v⟩ := x
          rcases hh : handleAttestation app.env (registrar app.env) (attestationArgs c ch v) (keyedRun app drop ops)
            with ⟨r, db'⟩
          rw [registrationResponse_eq hr hh] at hu
          rcases handleAttestation_db app.env (attestationArgs c ch v) (keyedRun app drop ops) with ⟨h5, -⟩ |
            ⟨o, raw, acd, u', k, kb, -, -, -, -, -, -, h11⟩
          · rw [hh] at h5
            rwa [show db' = _ from h5] at hu
          · rw [hh] at h11
            obtain ⟨rfl, rfl⟩ := Prod.mk.inj h11
            exact hu
      | authenticationResponse f t =>
        refine keep ?_
        have hu : u ∈ (authenticationResponse app f t (keyedRun app drop ops)).2.users := hu
        cases hr : readResponse app false f t (keyedRun app drop ops) with
        | error r => simpa only [authenticationResponse, hr] using hu
        | ok x =>
          obtain ⟨c, ch, v⟩ := x
          rcases hh : handleAssertion app.env (registrar app.env) (assertionArgs c ch v) (keyedRun app drop ops)
            with ⟨r, db'⟩
          rw [authenticationResponse_eq hr hh] at hu
          rcases handleAssertion_db app.env (assertionArgs c ch v) (keyedRun app drop ops) with ⟨h5, -⟩ |
            ⟨cd, user, rp, ad, -, -, h11⟩
          · rw [hh] at h5
            rwa [show db' = _ from h5] at hu
          · rw [hh] at h11
            obtain ⟨rfl, rfl⟩ := Prod.mk.inj h11
            exact hu

theorem name_gone (hd : DropsUser drop) (app : App) : NameGone (keyedReply app drop) := by
  intro ops name ch t h
  have : (keyedRun app drop ops).userNamed name = none := by
    refine List.find?_eq_none.mpr fun u hu hn => ?_
    obtain ⟨i, h1, h2⟩ := applied_run hd ops u hu
    obtain rfl : u.username = name := by simpa using hn
    exact h2 (h i h1)
  simp only [keyedReply, keyedStep, this]

/-- C108: the application does not know a name that was deleted, until somebody asks to register under
it, whether the other rows are deleted … -/
theorem C108_account_name (app : App) : NameGone (keyedReply app dropAccount) := name_gone dropsUser_account app

/-- … or not. -/
theorem C108_user_name (app : App) : NameGone (keyedReply app dropUser) := name_gone dropsUser_user app

end

/-! ## What stays in the tables -/

structure KeyedHas (app : App) (ops : List AccountOp) (db : Db) : Prop where
  given : ∀ i n ch t name, GivenAt (keyedReply app dropAccount) ops i n ch t name → ¬ DeletedAfter ops i name →
    ∃ u ∈ db.users, u.username = name ∧ ⟨n, ch, t, u.id⟩ ∈ db.challenges
  joined : ∀ i id name k, JoinedAt (keyedReply app dropAccount) app ops i id name k → ¬ DeletedAfter ops i name →
    ∃ u ∈ db.users, u.username = name ∧ ∃ row ∈ db.credentials, row.id = id ∧ row.userId = u.id ∧
      coseKey app.env k = .ok row.key
  challengeIds : db.challenges.Pairwise fun c d => c.id ≠ d.id
  credentialIds : db.credentials.Pairwise fun c d => c.id ≠ d.id
  counts : ∀ row ∈ db.credentials, ∀ m, row.count = some m → ∃ l m', m = (m' : Nat) ∧
    LoggedAt (keyedReply app dropAccount) app ops l row.id m' ∧
    ∀ j name k, JoinedAt (keyedReply app dropAccount) app ops j row.id name k → j < l

section
variable {rep : List AccountOp → Event → Reply} {app : App} {ops : List AccountOp} {db : Db}

theorem givenAt_back {op : AccountOp} {i n : Nat} {ch : Bytes} {t : Int} {name : String}
    (h : GivenAt rep (ops ++ [op]) i n ch t name) : GivenAt rep ops i n ch t name ∨
      i = ops.length ∧ ∃ e, op = .request e ∧ IssuesBy (fun _ => rep ops) [] e n ch t name := by
  obtain ⟨e, h1, h2⟩ := h
  rcases getElem?_snoc h1 with h1 | ⟨rfl, h3⟩
  · refine Or.inl ⟨e, h1, ?_⟩
    rw [List.take_append_of_le_length (List.getElem?_eq_some_iff.mp h1).1.le] at h2
    exact h2
  · rw [take_last] at h2
    exact Or.inr ⟨rfl, e, h3.symm, h2⟩

theorem joinedAt_back {op : AccountOp} {i : Nat} {id : Bytes} {name : String} {k : CPK}
    (h : JoinedAt rep app (ops ++ [op]) i id name k) : JoinedAt rep app ops i id name k ∨
      i = ops.length ∧ ∃ e, op = .request e ∧ RegistersBy (fun _ => rep ops) app [] e id name k := by
  obtain ⟨e, h1, h2⟩ := h
  rcases getElem?_snoc h1 with h1 | ⟨rfl, h3⟩
  · refine Or.inl ⟨e, h1, ?_⟩
    rw [List.take_append_of_le_length (List.getElem?_eq_some_iff.mp h1).1.le] at h2
    exact h2
  · rw [take_last] at h2
    exact Or.inr ⟨rfl, e, h3.symm, h2⟩

theorem loggedAt_snoc {i : Nat} {id : Bytes} {m : Nat} (op : AccountOp) (h : LoggedAt rep app ops i id m) :
    LoggedAt rep app (ops ++ [op]) i id m := by
  obtain ⟨f, t, n, c, name, h1, h2, h3⟩ := h
  have hi := (List.getElem?_eq_some_iff.mp h1).1
  exact ⟨f, t, n, c, name, by rw [List.getElem?_append_left hi, h1], by rw [List.take_append_of_le_length hi.le]; exact h2, h3⟩

theorem deletedAfter_mono {i : Nat} {name : String} (op : AccountOp) (h : DeletedAfter ops i name) :
    DeletedAfter (ops ++ [op]) i name := by
  obtain ⟨j, hj, h⟩ := h
  exact ⟨j, hj, by rw [List.getElem?_append_left (List.getElem?_eq_some_iff.mp h).1, h]⟩

/-- A request that issues nothing and registers nothing. -/
theorem KeyedHas.quiet (h : KeyedHas app ops db) (e : Event)
    (h1 : ∀ n ch t name, ¬ IssuesBy (fun _ => keyedReply app dropAccount ops) [] e n ch t name)
    (h2 : ∀ id name k, ¬ RegistersBy (fun _ => keyedReply app dropAccount ops) app [] e id name k) :
    KeyedHas app (ops ++ [.request e]) db where
  given := by
    intro i n ch t name hg hd
    rcases givenAt_back hg with hg | ⟨-, _, he, hg⟩
    · exact h.given i n ch t name hg fun hd' => hd (deletedAfter_mono _ hd')
    · cases he
      exact absurd hg (h1 _ _ _ _)
  joined := by
    intro i id name k hj hd
    rcases joinedAt_back hj with hj | ⟨-, _, he, hj⟩
    · exact h.joined i id name k hj fun hd' => hd (deletedAfter_mono _ hd')
    · cases he
      exact absurd hj (h2 _ _ _)
  challengeIds := h.challengeIds
  credentialIds := h.credentialIds
  counts := by
    intro row hr m hm
    obtain ⟨l, m', g1, g2, g3⟩ := h.counts row hr m hm
    refine ⟨l, m', g1, loggedAt_snoc _ g2, fun j name k hj => ?_⟩
    rcases joinedAt_back hj with hj | ⟨-, _, he, hj⟩
    · exact g3 j name k hj
    · cases he
      exact absurd hj (h2 _ _ _)

theorem KeyedHas.users (h : KeyedHas app ops db) (us : List User) :
    KeyedHas app ops { db with users := db.users ++ us } where
  given := fun i n ch t name hg hd =>
    let ⟨u, g1, g2⟩ := h.given i n ch t name hg hd
    ⟨u, List.mem_append_left _ g1, g2⟩
  joined := fun i id name k hj hd =>
    let ⟨u, g1, g2⟩ := h.joined i id name k hj hd
    ⟨u, List.mem_append_left _ g1, g2⟩
  challengeIds := h.challengeIds
  credentialIds := h.credentialIds
  counts := h.counts

/-- A request that issues a challenge. -/
theorem KeyedHas.issued (h : KeyedHas app ops db) {e : Event} {u : User} {ch : Bytes} {t : Int} {key : String} {v : PyVal}
    (hu : u ∈ db.users)
    (hrep : keyedReply app dropAccount ops e = .json (.dict [(.str "challengeID",
      .int (nextKey (db.challenges.map Challenge.id))), (.str key, v)]))
    (he : (∃ hd, e = .registrationRequest (some u.username) hd ch t) ∨ e = .authenticationRequest (some u.username) ch t) :
    KeyedHas app (ops ++ [.request e]) { db with
      challenges := db.challenges ++ [⟨nextKey (db.challenges.map Challenge.id), ch, t, u.id⟩] } where
  given := by
    intro i n ch' t' name hg hd
    rcases givenAt_back hg with hg | ⟨-, _, he', ⟨key', v', hg1⟩, hg2⟩
    · obtain ⟨w, g1, g2, g3⟩ := h.given i n ch' t' name hg fun hd' => hd (deletedAfter_mono _ hd')
      exact ⟨w, g1, g2, List.mem_append_left _ g3⟩
    · cases he'
      dsimp only at hg1
      rw [hrep] at hg1
      simp only [Reply.json.injEq, PyVal.dict.injEq, List.cons.injEq, Prod.mk.injEq, true_and, PyVal.int.injEq,
        Int.natCast_inj] at hg1
      refine ⟨u, hu, ?_⟩
      obtain ⟨rfl, -⟩ := hg1
      rcases he with ⟨hdl, rfl⟩ | rfl
      · rcases hg2 with ⟨_, hg2⟩ | hg2
        · cases hg2
          exact ⟨rfl, by simp⟩
        · cases hg2
      · rcases hg2 with ⟨_, hg2⟩ | hg2
        · cases hg2
        · cases hg2
          exact ⟨rfl, by simp⟩
  joined := by
    intro i id name k hj hd
    rcases joinedAt_back hj with hj | ⟨-, _, he', f, t, n, c, cdj, ob, o, raw, acd, rfl, -⟩
    · exact h.joined i id name k hj fun hd' => hd (deletedAfter_mono _ hd')
    · cases he'
      rcases he with ⟨_, he⟩ | he <;> cases he
  challengeIds := pairwise_snoc h.challengeIds fun _ hc => Nat.ne_of_lt (nextKey_gt (List.mem_map_of_mem hc))
  credentialIds := h.credentialIds
  counts := by
    intro row hr m hm
    obtain ⟨l, m', g1, g2, g3⟩ := h.counts row hr m hm
    refine ⟨l, m', g1, loggedAt_snoc _ g2, fun j name k hj => ?_⟩
    rcases joinedAt_back hj with hj | ⟨-, _, he', f, t, n, c, cdj, ob, o, raw, acd, rfl, -⟩
    · exact g3 j name k hj
    · cases he'
      rcases he with ⟨_, he⟩ | he <;> cases he

theorem KeyedHas.deleted (h : KeyedHas app ops db) (ids : db.users.Pairwise fun u v => u.id ≠ v.id) (name : String) :
    KeyedHas app (ops ++ [.delete name]) (dropAccount name db) := by
  have other : ∀ {i : Nat} {name' : String}, i < ops.length → ¬ DeletedAfter (ops ++ [.delete name]) i name' →
      ¬ DeletedAfter ops i name' ∧ name' ≠ name := by
    intro i name' hi hd
    refine ⟨fun h => hd (deletedAfter_mono _ h), ?_⟩
    rintro rfl
    exact hd ⟨ops.length, hi, at_last _ _⟩
  have given : ∀ {i n ch t name'}, GivenAt (keyedReply app dropAccount) (ops ++ [.delete name]) i n ch t name' →
      GivenAt (keyedReply app dropAccount) ops i n ch t name' ∧ i < ops.length := by
    intro i n ch t name' hg
    rcases givenAt_back hg with hg | ⟨-, _, he', -⟩
    · exact ⟨hg, let ⟨_, h, _⟩ := hg; (List.getElem?_eq_some_iff.mp h).1⟩
    · cases he'
  have joined : ∀ {i id name' k}, JoinedAt (keyedReply app dropAccount) app (ops ++ [.delete name]) i id name' k →
      JoinedAt (keyedReply app dropAccount) app ops i id name' k ∧ i < ops.length := by
    intro i id name' k hg
    rcases joinedAt_back hg with hg | ⟨-, _, he', -⟩
    · exact ⟨hg, let ⟨_, h, _⟩ := hg; (List.getElem?_eq_some_iff.mp h).1⟩
    · cases he'
  have stays : ∀ u ∈ db.users, u.username ≠ name → u ∈ (dropAccount name db).users ∧
      (∀ c ∈ db.challenges, c.userId = u.id → c ∈ (dropAccount name db).challenges) ∧
      (∀ c ∈ db.credentials, c.userId = u.id → c ∈ (dropAccount name db).credentials) := by
    intro u hu hn
    unfold dropAccount
    cases hv : db.userNamed name with
    | none => exact ⟨hu, fun c hc _ => hc, fun c hc _ => hc⟩
    | some v =>
      obtain ⟨hv1, hv2⟩ := userNamed_some hv
      have hne : u.id ≠ v.id := by
        intro he
        rw [pairwise_inj ids hu hv1 he] at hn
        exact hn hv2
      exact ⟨List.mem_filter.mpr ⟨hu, by simpa using hn⟩, fun c hc he => List.mem_filter.mpr ⟨hc, by simpa [he] using hne⟩,
        fun c hc he => List.mem_filter.mpr ⟨hc, by simpa [he] using hne⟩⟩
  refine ⟨?_, ?_, h.challengeIds.sublist (shrinks_account.challenges name db),
    h.credentialIds.sublist (shrinks_account.credentials name db), ?_⟩
  · intro i n ch t name' hg hd
    obtain ⟨hg, hi⟩ := given hg
    obtain ⟨hd, hn⟩ := other hi hd
    obtain ⟨u, g1, g2, g3⟩ := h.given i n ch t name' hg hd
    obtain ⟨s1, s2, -⟩ := stays u g1 (g2 ▸ hn)
    exact ⟨u, s1, g2, s2 _ g3 rfl⟩
  · intro i id name' k hg hd
    obtain ⟨hg, hi⟩ := joined hg
    obtain ⟨hd, hn⟩ := other hi hd
    obtain ⟨u, g1, g2, row, g3, g4, g5, g6⟩ := h.joined i id name' k hg hd
    obtain ⟨s1, -, s2⟩ := stays u g1 (g2 ▸ hn)
    exact ⟨u, s1, g2, row, s2 _ g3 g5, g4, g5, g6⟩
  · intro row hr m hm
    obtain ⟨l, m', g1, g2, g3⟩ := h.counts row ((shrinks_account.credentials name db).subset hr) m hm
    exact ⟨l, m', g1, loggedAt_snoc _ g2, fun j name' k hj => g3 j name' k (joined hj).1⟩

end

theorem not_json_success {n : Nat} {key : String} {v : PyVal}
    (h : success = .json (.dict [(.str "challengeID", .int n), (.str key, v)])) : False := by
  simp [success] at h

section
variable {app : App} {ops : List AccountOp}

theorem KeyedHas.step (h : KeyedHas app ops (keyedRun app dropAccount ops))
    (inv : KeyedInv True (keyedReply app dropAccount) app ops (keyedRun app dropAccount ops)) (e : Event) :
    KeyedHas app (ops ++ [.request e]) (keyedRun app dropAccount (ops ++ [.request e])) := by
  rw [keyedRun_snoc]
  cases e with
  | registrationRequest name hd ch t =>
    have noreg : ∀ id name' k, ¬ RegistersBy (fun _ => keyedReply app dropAccount ops) app []
        (.registrationRequest name hd ch t) id name' k := by
      rintro _ _ _ ⟨f, t, n, c, cdj, ob, o, raw, acd, h, -⟩
      cases h
    cases name with
    | none =>
      refine h.quiet _ ?_ noreg
      rintro n ch t name ⟨-, ⟨_, hg⟩ | hg⟩ <;> cases hg
    | some name =>
      have key : ∀ (u : User) (db : Db), KeyedHas app ops db → u ∈ db.users → u.username = name →
          findOrInsertUser (keyedRun app dropAccount ops) name hd = (.ok u, db) →
          KeyedHas app (ops ++ [.request (.registrationRequest (some name) hd ch t)])
            (keyedStep app (.registrationRequest (some name) hd ch t) (keyedRun app dropAccount ops)).2 := by
        rintro u db hdb hu rfl hf
        rcases insertChallenge_cases db ch t u.id with ha | ⟨-, ha⟩
        · have hrep : keyedReply app dropAccount ops (.registrationRequest (some u.username) hd ch t) =
              .crash integrityError := by simp only [keyedReply, keyedStep, hf, ha]
          simp only [keyedStep, hf, ha]
          refine hdb.quiet _ ?_ noreg
          rintro n ch t name ⟨⟨key, v, hg⟩, -⟩
          dsimp only at hg
          rw [hrep] at hg
          cases hg
        · obtain ⟨v, hv, -⟩ := creation_reply (nextKey (db.challenges.map Challenge.id))
            { name := u.username, id := u.handle, displayName := u.username } ch
          have hrep : keyedReply app dropAccount ops (.registrationRequest (some u.username) hd ch t) =
              .json (.dict [(.str "challengeID", .int (nextKey (db.challenges.map Challenge.id))),
                (.str "creationOptions", v)]) := by
            simp only [keyedReply, keyedStep, hf, ha]
            exact hv
          simp only [keyedStep, hf, ha]
          exact hdb.issued hu hrep (Or.inl ⟨hd, rfl⟩)
      dsimp only
      rcases insertUser_cases (keyedRun app dropAccount ops) name hd with ⟨u, hu, hn, hf⟩ | hf | ⟨-, hf⟩
      · exact key u _ h hu hn hf
      · have hrep : keyedReply app dropAccount ops (.registrationRequest (some name) hd ch t) =
            .crash integrityError := by simp only [keyedReply, keyedStep, hf]
        simp only [keyedStep, hf]
        refine h.quiet _ ?_ noreg
        rintro n ch t name ⟨⟨key, v, hg⟩, -⟩
        dsimp only at hg
        rw [hrep] at hg
        cases hg
      · exact key _ _ (h.users _) (by simp) rfl hf
  | authenticationRequest name ch t =>
    have noreg : ∀ id name' k, ¬ RegistersBy (fun _ => keyedReply app dropAccount ops) app []
        (.authenticationRequest name ch t) id name' k := by
      rintro _ _ _ ⟨f, t, n, c, cdj, ob, o, raw, acd, h, -⟩
      cases h
    cases name with
    | none =>
      refine h.quiet _ ?_ noreg
      rintro n ch t name ⟨-, ⟨_, hg⟩ | hg⟩ <;> cases hg
    | some name =>
      dsimp only
      cases hu : (keyedRun app dropAccount ops).userNamed name with
      | none =>
        have hrep : keyedReply app dropAccount ops (.authenticationRequest (some name) ch t) =
            .text "User not registered" 400 := by simp only [keyedReply, keyedStep, hu]
        simp only [keyedStep, hu]
        refine h.quiet _ ?_ noreg
        rintro n ch t name ⟨⟨key, v, hg⟩, -⟩
        dsimp only at hg
        rw [hrep] at hg
        cases hg
      | some u =>
        obtain ⟨hu1, rfl⟩ := userNamed_some hu
        rcases insertChallenge_cases (keyedRun app dropAccount ops) ch t u.id with ha | ⟨-, ha⟩
        · have hrep : keyedReply app dropAccount ops (.authenticationRequest (some u.username) ch t) =
              .crash integrityError := by simp only [keyedReply, keyedStep, hu, ha]
          simp only [keyedStep, hu, ha]
          refine h.quiet _ ?_ noreg
          rintro n ch t name ⟨⟨key, v, hg⟩, -⟩
          dsimp only at hg
          rw [hrep] at hg
          cases hg
        · obtain ⟨v, hv, -⟩ := request_reply (nextKey ((keyedRun app dropAccount ops).challenges.map Challenge.id))
            ((keyedRun app dropAccount ops).credentials.filter fun c => c.userId == u.id) ch
          have hrep : keyedReply app dropAccount ops (.authenticationRequest (some u.username) ch t) =
              .json (.dict [(.str "challengeID",
                .int (nextKey ((keyedRun app dropAccount ops).challenges.map Challenge.id))),
                (.str "requestOptions", v)]) := by
            simp only [keyedReply, keyedStep, hu, ha]
            exact hv
          simp only [keyedStep, hu, ha]
          exact h.issued hu1 hrep (Or.inr rfl)
  | registrationResponse f t =>
    have noissue : ∀ n ch t' name, ¬ IssuesBy (fun _ => keyedReply app dropAccount ops) []
        (.registrationResponse f t) n ch t' name := by
      rintro n ch t' name ⟨-, ⟨_, hg⟩ | hg⟩ <;> cases hg
    show KeyedHas app _ (registrationResponse app f t (keyedRun app dropAccount ops)).2
    cases hr : readResponse app true f t (keyedRun app dropAccount ops) with
    | error r =>
      have hrep : keyedReply app dropAccount ops (.registrationResponse f t) = r := by
        simp only [keyedReply, keyedStep, registrationResponse, hr]
      simp only [registrationResponse, hr]
      refine h.quiet _ noissue ?_
      rintro id name k ⟨_, _, _, _, _, _, _, _, _, he, hg, -⟩
      dsimp only at hg
      rw [hrep] at hg
      exact readResponse_refuses hr hg
    | ok x =>
      obtain ⟨c, ch, u⟩ := x
      obtain ⟨n, name, h1, -, h3, h4, -⟩ := readResponse_ok_iff.mp hr
      rcases hh : handleAttestation app.env (registrar app.env) (attestationArgs c ch u) (keyedRun app dropAccount ops)
        with ⟨r, db'⟩
      have hrep : keyedReply app dropAccount ops (.registrationResponse f t) = conclude "Could not handle credential attestation" r := by
        simp only [keyedReply, keyedStep, registrationResponse_eq hr hh]
      rw [registrationResponse_eq hr hh]
      rcases handleAttestation_db app.env (attestationArgs c ch u) (keyedRun app dropAccount ops) with ⟨h5, h5'⟩ |
        ⟨o, raw, acd, u', k, kb, ⟨cdj, ob, h5, -, h5', -⟩, h6, h7, h8, h9, h10, h11⟩
      · rw [hh] at h5 h5'
        rw [show db' = _ from h5]
        refine h.quiet _ noissue ?_
        rintro id name k ⟨_, _, _, _, _, _, _, _, _, he, hg, -⟩
        dsimp only at hg
        rw [hrep, conclude_success] at hg
        exact h5' hg
      · rw [hh] at h11
        obtain ⟨rfl, rfl⟩ := Prod.mk.inj h11
        obtain ⟨hu1, hu2⟩ := userNamed_some h4
        obtain ⟨hv1, hv2⟩ := userOfHandle_some h7
        obtain rfl : u' = u := pairwise_inj inv.handles hv1 hu1 hv2
        have fresh : ∀ row ∈ (keyedRun app dropAccount ops).credentials, row.id ≠ c.rawId := h10
        have mine : ∀ id name' k', RegistersBy (fun _ => keyedReply app dropAccount ops) app []
            (.registrationResponse f t) id name' k' → id = c.rawId ∧ name' = u'.username ∧ k' = k := by
          rintro id name' k' ⟨f', t', n', c', cdj', ob', o', raw', acd', he, -, g1, g2, g3, g4, g5, g6⟩
          cases he
          obtain ⟨rfl, rfl, rfl⟩ := submits_unique g1 h1
          have h5 : c'.response = _ := h5
          rw [h5] at g3
          cases g3
          have g4 := parseAttestationObject_ok_iff.mpr g4
          rw [parseAttestationObject_ok_iff.mpr h5'] at g4
          cases g4
          rw [h6] at g5
          cases g5
          rw [h8] at g6
          cases g6
          exact ⟨g2.symm, hu2.symm, rfl⟩
        refine ⟨?_, ?_, h.challengeIds, pairwise_snoc h.credentialIds fun row hr => fresh row hr, ?_⟩
        · intro i n' ch' t' name' hg hd
          rcases givenAt_back hg with hg | ⟨-, _, he, hg⟩
          · exact h.given i n' ch' t' name' hg fun hd' => hd (deletedAfter_mono _ hd')
          · cases he
            exact absurd hg (noissue _ _ _ _)
        · intro i id name' k' hj hd
          rcases joinedAt_back hj with hj | ⟨-, _, he, hj⟩
          · obtain ⟨w, w1, w2, row, w3, w4⟩ := h.joined i id name' k' hj fun hd' => hd (deletedAfter_mono _ hd')
            exact ⟨w, w1, w2, row, List.mem_append_left _ w3, w4⟩
          · cases he
            obtain ⟨rfl, rfl, rfl⟩ := mine _ _ _ hj
            exact ⟨u', hu1, rfl, _, List.mem_append_right _ (List.mem_singleton_self _), rfl, rfl, h9⟩
        · intro row hrow m hm
          rcases List.mem_append.mp hrow with hrow | hrow
          · obtain ⟨l, m', g1, g2, g3⟩ := h.counts row hrow m hm
            refine ⟨l, m', g1, loggedAt_snoc _ g2, fun j name k hj => ?_⟩
            rcases joinedAt_back hj with hj | ⟨-, _, he, hj⟩
            · exact g3 j name k hj
            · cases he
              exact absurd (mine _ _ _ hj).1 (fresh row hrow)
          · rw [List.mem_singleton] at hrow
            subst hrow
            cases hm
  | authenticationResponse f t =>
    have noissue : ∀ n ch t' name, ¬ IssuesBy (fun _ => keyedReply app dropAccount ops) []
        (.authenticationResponse f t) n ch t' name := by
      rintro n ch t' name ⟨-, ⟨_, hg⟩ | hg⟩ <;> cases hg
    have noreg : ∀ id name' k, ¬ RegistersBy (fun _ => keyedReply app dropAccount ops) app []
        (.authenticationResponse f t) id name' k := by
      rintro _ _ _ ⟨f, t, n, c, cdj, ob, o, raw, acd, h, -⟩
      cases h
    show KeyedHas app _ (authenticationResponse app f t (keyedRun app dropAccount ops)).2
    have hq := h.quiet _ noissue noreg
    cases hr : readResponse app false f t (keyedRun app dropAccount ops) with
    | error r =>
      simp only [authenticationResponse, hr]
      exact hq
    | ok x =>
      obtain ⟨c, ch, u⟩ := x
      obtain ⟨n, name, h1, -, h3, h4, -⟩ := readResponse_ok_iff.mp hr
      rcases hh : handleAssertion app.env (registrar app.env) (assertionArgs c ch u) (keyedRun app dropAccount ops)
        with ⟨r, db'⟩
      rw [authenticationResponse_eq hr hh]
      rcases handleAssertion_db app.env (assertionArgs c ch u) (keyedRun app dropAccount ops) with ⟨h5, -⟩ |
        ⟨cd, user, rp, ad, -, ⟨cdj, raw, sig, handle, h5, -, -, -, ⟨h6, -⟩, -⟩, h11⟩
      · rw [hh] at h5
        rw [show db' = _ from h5]
        exact hq
      · rw [hh] at h11
        obtain ⟨rfl, rfl⟩ := Prod.mk.inj h11
        refine ⟨hq.given, ?_, hq.challengeIds, ?_, ?_⟩
        · intro i id name' k hj hd
          obtain ⟨w, w1, w2, row, w3, w4, w5, w6⟩ := hq.joined i id name' k hj hd
          obtain ⟨e1, e2, e3⟩ := setCount_keeps c.rawId ad.signCount row
          exact ⟨w, w1, w2, _, List.mem_map_of_mem w3, e1.trans w4, e3.trans w5, w6.trans (congrArg _ e2.symm)⟩
        · refine List.pairwise_map.mpr (hq.credentialIds.imp fun {a b} hab => ?_)
          rw [(setCount_keeps _ _ a).1, (setCount_keeps _ _ b).1]
          exact hab
        · intro row hrow m hm
          obtain ⟨row', hrow', rfl⟩ := List.mem_map.mp hrow
          rw [(setCount_keeps _ _ row').1]
          have hc : (assertionArgs c ch u).credential.rawId = c.rawId := rfl
          rw [hc] at hm
          by_cases hid : row'.id = c.rawId
          · simp only [setCount, hid, beq_self_eq_true, if_true, Option.some.injEq] at hm
            subst hm
            refine ⟨ops.length, ad.signCount, rfl, ⟨f, t, n, c, name, at_last _ _, ?_, h1, hid.symm, cdj, raw, sig, handle,
              h5, (authDataOf_head h6).2.2.2⟩, fun j name k hj => ?_⟩
            · rw [take_last]
              show (authenticationResponse app f t (keyedRun app dropAccount ops)).1 = _
              rw [authenticationResponse_eq hr hh]
              rfl
            · rcases joinedAt_back hj with ⟨_, hj, -⟩ | ⟨-, _, he, hj⟩
              · exact (List.getElem?_eq_some_iff.mp hj).1
              · cases he
                exact absurd hj (noreg _ _ _)
          · simp only [setCount, beq_iff_eq, hid, if_false] at hm
            exact hq.counts row' hrow' m hm

theorem keyedHas_run (app : App) (ops : List AccountOp) : KeyedHas app ops (keyedRun app dropAccount ops) := by
  induction ops using List.reverseRecOn with
  | nil =>
    refine ⟨?_, ?_, by simp [keyedRun], by simp [keyedRun], by simp [keyedRun]⟩
    · rintro i n ch t name ⟨e, h, -⟩
      simp at h
    · rintro i id name k ⟨e, h, -⟩
      simp at h
  | append_singleton ops op ih =>
    have inv := keyedInv_run (own := True) (app := app) shrinks_account (fun _ => rfl) ops
    cases op with
    | request e => exact ih.step inv e
    | delete name =>
      rw [keyedRun_snoc]
      exact ih.deleted inv.userIds name

/-- C108: whoever is deleted, the application accepts the honest response of a user who is not: to a
challenge issued to the user at most 60000 ms before, with a credential that the user registered, with a
counter above those of the logins with it since (C56). -/
theorem C108_account_served (codec : CodecLaws app.env) (json : JsonLaw app.env)
    {f : Form} {now t : Int} {n i j : Nat} {ch : Bytes} {name chText : String} {c : Credential} {cdj raw sig : Bytes}
    {handle : Option Bytes} {ad : AuthData} {k : CPK}
    -- the challenge and the registration
    (hi : GivenAt (keyedReply app dropAccount) ops i n ch t name) (hid : ¬ DeletedAfter ops i name) (ht : now - t ≤ 60000)
    (hj : JoinedAt (keyedReply app dropAccount) app ops j c.rawId name k) (hjd : ¬ DeletedAfter ops j name)
    -- the form and the response of the browser
    (hf : Submits app f n c name) (hresp : c.response = .assertion cdj raw sig handle)
    (hcdj : ClientDataText "webauthn.get" chText "http://localhost:5000" none cdj)
    (hch : Base64UrlText chText ch)
    (hhandle : ∀ h, handle = some h → ∃ u ∈ (keyedRun app dropAccount ops).users, u.username = name ∧ u.handle = h)
    -- the authenticator data and its signature
    (had : EncodedAuthData app.env ad raw) (hrp : RpHashOk app.env raw "localhost")
    (hup : FlagSet raw 0) (hsig : SignedBy app.env k sig (raw ++ app.env.sha256 cdj))
    (hcount : ∀ l m, j < l → LoggedAt (keyedReply app dropAccount) app ops l c.rawId m → m < ad.signCount) :
    keyedReply app dropAccount ops (.authenticationResponse f now) = success := by
  have has := keyedHas_run app ops
  have inv := keyedInv_run (own := True) (app := app) shrinks_account (fun _ => rfl) ops
  obtain ⟨v, hv1, hv2, hrow⟩ := has.given i n ch t name hi hid
  obtain ⟨v', hv1', hv2', row, hrow', hrid, huid, hkey⟩ := has.joined j c.rawId name k hj hjd
  obtain rfl := pairwise_inj inv.names hv1' hv1 (hv2'.trans hv2.symm)
  have hread : readResponse app false f now (keyedRun app dropAccount ops) = .ok (c, ⟨n, ch, t, v'.id⟩, v') :=
    readResponse_ok_iff.mpr ⟨n, name, hf, by rw [hresp]; rfl,
      find_unique hrow (by simp) fun w hw hn => pairwise_inj has.challengeIds hw hrow (by simpa using hn),
      find_unique hv1 (by simpa using hv2) fun w hw hn => pairwise_inj inv.names hw hv1 (hv2 ▸ by simpa using hn), ht⟩
  have hcred : (keyedRun app dropAccount ops).credential c.rawId = some row :=
    find_unique hrow' (by simpa using hrid) fun w hw hn =>
      pairwise_inj has.credentialIds hw hrow' (hrid ▸ by simpa using hn)
  have hd : ∃ d, CoseKeyOf d k := by
    obtain ⟨_, -, _, _, _, _, _, _, _, _, _, -, -, -, -, -, e1, e2, e3⟩ := hj
    exact attested_key_dict e1 e2 e3
  have hparse := C27_stored_key codec (hd.imp fun _ => parseCoseKeyDict_ok_iff.mpr) hkey
  have hof : (keyedRun app dropAccount ops).userOfId row.userId = some v' := by
    rw [huid]
    exact find_unique hv1 (by simp) fun w hw hn => pairwise_inj inv.userIds hw hv1 (by simpa using hn)
  have hget : credentialData app.env c.rawId (keyedRun app dropAccount ops) =
      .ok (some ⟨asStored k, row.count, v'.entity, none⟩) := by
    simp only [credentialData, hcred, hparse, ok_bind, hof]
    rfl
  have hh := C52_honest_authentication codec json (reg := registrar app.env)
    (a := assertionArgs c ⟨n, ch, t, v'.id⟩ v') (s := keyedRun app dropAccount ops) (s1 := keyedRun app dropAccount ops)
    (cd := ⟨asStored k, row.count, v'.entity, none⟩) (user := v'.entity) (rp := rp)
    (congrArg (·, keyedRun app dropAccount ops) hget)
    (fun l hl => nomatch hl) hresp hcdj hch
    (.given _ _ rfl (fun h hh => by
      obtain ⟨w, hw1, hw2, hw3⟩ := hhandle h hh
      obtain rfl := pairwise_inj inv.names hw1 hv1 (hw2.trans hv2.symm)
      exact hw3.symm)) (.arg _) had hrp hup
    (fun h => nomatch h) (fun l hl => nomatch hl) (signedBy_asStored.mpr hsig) (fun m hm _ => by
      obtain ⟨l, m', rfl, g2, g3⟩ := has.counts row hrow' m hm
      exact ⟨ad.signCount, (authDataOf_head (encodedAuthData_of codec had)).2.2.2, by
        exact_mod_cast hcount l m' (g3 j name k (hrid ▸ hj)) (hrid ▸ g2)⟩) (expected_app _)
    (originAllowed_of (expected_app _) (List.mem_singleton.mpr rfl)) .none (s' := { keyedRun app dropAccount ops with
      credentials := (keyedRun app dropAccount ops).credentials.map (setCount c.rawId ad.signCount) }) (by
      show registerAssertion _ _ = _
      simp only [registerAssertion, assertionArgs, hcred])
  show (authenticationResponse app f now (keyedRun app dropAccount ops)).1 = _
  rw [authenticationResponse_eq hread hh]
  rfl

end

end WebAuthn.Flask
