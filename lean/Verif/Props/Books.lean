import Verif.Spec.Books
import Verif.Props.Order
import Verif.Props.Traces
import Verif.Props.Interaction

/-!
# What the tables say about the history (C114)
-/

namespace WebAuthn.Flask

open WebAuthn WebAuthn.Spec WebAuthn.Props

variable {app : App} {evs : List Event}

/-! ## Logins -/

theorem lastLogin_other {e : Event} {id : Bytes} (h : ∀ m, ¬ Authenticates app evs e id m) (m : Int) :
    LastLogin app (evs ++ [e]) id m ↔ LastLogin app evs id m := by
  constructor
  · rintro ⟨pre, x, post, hp, ha, hl⟩
    rcases List.eq_nil_or_concat post with rfl | ⟨post, y, rfl⟩
    · obtain ⟨rfl, h2⟩ := List.append_inj' hp rfl
      obtain rfl : e = x := by simpa using h2
      exact absurd ha (h m)
    · rw [List.concat_eq_append] at hp hl
      have hp : evs ++ [e] = (pre ++ x :: post) ++ [y] := by simpa using hp
      exact ⟨pre, x, post, (List.append_inj' hp rfl).1, ha, fun a z b m' he => hl a z (b ++ [y]) m' (by rw [he]; simp)⟩
  · rintro ⟨pre, x, post, rfl, ha, hl⟩
    refine ⟨pre, x, post ++ [e], by simp, ha, fun a z b m' he => ?_⟩
    rcases List.eq_nil_or_concat b with rfl | ⟨b, y, rfl⟩
    · obtain ⟨rfl, h2⟩ := List.append_inj' he rfl
      obtain rfl : e = z := by simpa using h2
      exact h m'
    · rw [List.concat_eq_append] at he
      have he : post ++ [e] = (a ++ z :: b) ++ [y] := by simpa using he
      exact hl a z b m' (List.append_inj' he rfl).1

theorem lastLogin_self {e : Event} {id : Bytes} {m0 : Int} (h : Authenticates app evs e id m0) (m : Int) :
    LastLogin app (evs ++ [e]) id m ↔ Authenticates app evs e id m := by
  constructor
  · rintro ⟨pre, x, post, hp, ha, hl⟩
    rcases List.eq_nil_or_concat post with rfl | ⟨post, y, rfl⟩
    · obtain ⟨rfl, h2⟩ := List.append_inj' hp rfl
      obtain rfl : e = x := by simpa using h2
      exact ha
    · rw [List.concat_eq_append] at hp hl
      have hp : evs ++ [e] = (pre ++ x :: post) ++ [y] := by simpa using hp
      obtain ⟨h1, h2⟩ := List.append_inj' hp rfl
      obtain rfl : e = y := by simpa using h2
      refine absurd h ?_
      rw [h1]
      exact hl post e [] m0 rfl
  · intro ha
    exact ⟨evs, e, [], rfl, ha, fun a x b m' he => by simp at he⟩

theorem authenticates_unique {e : Event} {id id' : Bytes} {m m' : Int} (h : Authenticates app evs e id m)
    (h' : Authenticates app evs e id' m') : id = id' ∧ m = m' := by
  obtain ⟨f, t, n, c, name, k, rfl, -, h1, rfl, rfl, h2⟩ := h
  obtain ⟨_, _, n', c', name', k', e1, -, h1', rfl, rfl, h2'⟩ := h'
  cases e1
  obtain ⟨-, rfl, -⟩ := submits_unique h1 h1'
  exact ⟨rfl, by rw [hasCounter_unique h2 h2']⟩

/-- The credential of a login is stored. -/
theorem login_row {pre : List Event} {e : Event} {id : Bytes} {m : Int} (ho : Occurs evs pre e)
    (h : Authenticates app pre e id m) : ∃ c ∈ (run app evs).credentials, c.id = id := by
  obtain ⟨post, rfl⟩ := ho
  obtain ⟨f, t, n, c, name, k, rfl, hs, h1, rfl, -, -⟩ := h
  obtain ⟨_, _, _, ch, u, row, key, user, rp, ad, g1, -, -, -, -, -, g7, -⟩ := authentication_success hs
  obtain ⟨-, rfl, -⟩ := submits_unique h1 g1
  obtain ⟨r1, r2⟩ := credential_some g7
  obtain ⟨c', hc, h2, -⟩ := row_run app pre (_ :: post) ⟨row, r1, r2, rfl, rfl⟩
  exact ⟨c', hc, h2⟩

theorem login_last {pre : List Event} {e : Event} {id : Bytes} {m : Int} (ho : Occurs evs pre e)
    (h : Authenticates app pre e id m) : ∃ m', LastLogin app evs id m' := by
  induction evs using List.reverseRecOn with
  | nil => obtain ⟨post, hp⟩ := ho; simp at hp
  | append_singleton evs x ih =>
    by_cases hx : ∃ m', Authenticates app evs x id m'
    · obtain ⟨m', hx⟩ := hx
      exact ⟨m', (lastLogin_self hx m').mpr hx⟩
    · have hx : ∀ m', ¬ Authenticates app evs x id m' := fun m' h => hx ⟨m', h⟩
      obtain ⟨post, hp⟩ := ho
      rcases List.eq_nil_or_concat post with rfl | ⟨post, y, rfl⟩
      · obtain ⟨rfl, h2⟩ := List.append_inj' hp rfl
        obtain rfl : x = e := by simpa using h2
        exact absurd h (hx m)
      · rw [List.concat_eq_append] at hp
        have hp : evs ++ [x] = (pre ++ e :: post) ++ [y] := by simpa using hp
        obtain ⟨m', hm⟩ := ih ⟨post, (List.append_inj' hp rfl).1⟩
        exact ⟨m', (lastLogin_other hx m').mpr hm⟩

theorem lastLogin_occurs {id : Bytes} {m : Int} (h : LastLogin app evs id m) :
    ∃ pre e, Occurs evs pre e ∧ Authenticates app pre e id m := by
  obtain ⟨pre, e, post, rfl, ha, -⟩ := h
  exact ⟨pre, e, ⟨post, rfl⟩, ha⟩

/-- C114: the counter that is stored is that of the last login. -/
theorem C114_counters (app : App) (evs : List Event) :
    ∀ c ∈ (run app evs).credentials, ∀ m, c.count = some m ↔ LastLogin app evs c.id m := by
  induction evs using List.reverseRecOn with
  | nil => intro c hc; cases hc
  | append_singleton evs e ih =>
    have quiet : (∀ id m, ¬ Authenticates app evs e id m) →
        (run app (evs ++ [e])).credentials = (run app evs).credentials →
        ∀ c ∈ (run app (evs ++ [e])).credentials, ∀ m, c.count = some m ↔ LastLogin app (evs ++ [e]) c.id m := by
      intro hq hc c hm m
      rw [hc] at hm
      rw [lastLogin_other (hq c.id), ih c hm m]
    cases e with
    | registrationRequest n hd ch t =>
      refine quiet (fun id m h => ?_) ?_
      · obtain ⟨f, t, n, c, name, k, h, -⟩ := h; cases h
      · obtain ⟨us, cs, h, -⟩ := request_shape (app := app) (db := run app evs)
          (e := .registrationRequest n hd ch t) rfl
        rw [run_snoc, h]
    | authenticationRequest n ch t =>
      refine quiet (fun id m h => ?_) ?_
      · obtain ⟨f, t, n, c, name, k, h, -⟩ := h; cases h
      · obtain ⟨us, cs, h, -⟩ := request_shape (app := app) (db := run app evs)
          (e := .authenticationRequest n ch t) rfl
        rw [run_snoc, h]
    | registrationResponse f t =>
      have hq : ∀ id m, ¬ Authenticates app evs (.registrationResponse f t) id m := by
        rintro id m ⟨f, t, n, c, name, k, h, -⟩
        cases h
      by_cases hs : reply app evs (.registrationResponse f t) = success
      · obtain ⟨n, c, name, ch, u, o, raw, acd, k, key, -, -, -, -, -, -, -, -, -, -, g11, g12⟩ := registration_success hs
        intro x hx m
        rw [lastLogin_other (hq x.id)]
        rw [g12] at hx
        rcases List.mem_append.mp hx with hx | hx
        · exact ih x hx m
        · rw [List.mem_singleton] at hx
          subst hx
          refine ⟨fun h => (by cases h), fun h => ?_⟩
          obtain ⟨pre, e, ho, ha⟩ := lastLogin_occurs h
          obtain ⟨y, hy, hi⟩ := login_row ho ha
          exact absurd hi (g11 y hy)
      · refine quiet hq ?_
        rw [run_snoc, response_kept (Or.inl ⟨f, t, rfl⟩) hs]
    | authenticationResponse f t =>
      by_cases hs : reply app evs (.authenticationResponse f t) = success
      · obtain ⟨n, c, name, ch, u, row, key, user, rp, ad, g1, -, -, -, -, -, -, -, -, g10, g11⟩ :=
          authentication_success hs
        have ha : Authenticates app evs (.authenticationResponse f t) c.rawId ad.signCount :=
          ⟨f, t, n, c, name, ad.signCount, rfl, hs, g1, rfl, rfl, assertionOk_counter g10⟩
        intro x hx m
        rw [g11] at hx
        obtain ⟨y, hy, rfl⟩ := List.mem_map.mp hx
        rw [(setCount_keeps c.rawId ad.signCount y).1]
        by_cases hid : y.id = c.rawId
        · have h1 : (setCount c.rawId ad.signCount y).count = some (ad.signCount : Int) := by simp [setCount, hid]
          rw [h1, hid, lastLogin_self ha]
          refine ⟨fun h => ?_, fun h => ?_⟩
          · rw [← Option.some.inj h]
            exact ha
          · rw [(authenticates_unique ha h).2]
        · have h1 : (setCount c.rawId ad.signCount y).count = y.count := by simp [setCount, hid]
          rw [h1, lastLogin_other fun m' h => hid (authenticates_unique h ha).1]
          exact ih y hy m
      · refine quiet ?_ ?_
        · rintro id m ⟨f', t', n, c, name, k, h, hs', -⟩
          exact hs hs'
        · rw [run_snoc, response_kept (Or.inr ⟨f, t, rfl⟩) hs]

/-! ## Accounts -/

theorem opened_taken {db : Db} {name : String} {hd : Bytes} :
    (∃ a ∈ db.users.map fun u => (u.username, u.handle), a.1 = name ∨ a.2 = hd) ↔
      ∃ u ∈ db.users, u.username = name ∨ u.handle = hd := by
  simp

theorem step_opened {db : Db} (k : Keyed db) (e : Event) : ((step app e db).2.users.map fun u => (u.username, u.handle)) =
    opened (db.users.map fun u => (u.username, u.handle)) e := by
  cases e with
  | registrationRequest n hd ch t =>
    cases n with
    | none => rfl
    | some name =>
      show ((registrationRequest (some name) hd ch t db).2.users.map _) = _
      have key : ((registrationRequest (some name) hd ch t db).2.users) = (findOrAddUser db name hd).2.users := by
        simp only [registrationRequest]
        rcases findOrAddUser db name hd with ⟨e | u, d⟩
        · rfl
        · simp only
          rcases addChallenge_cases d ch t u.id with ha | ⟨-, ha⟩ <;> rw [ha]
      rw [key]
      simp only [opened, opened_taken]
      unfold findOrAddUser
      cases hu : db.userNamed name with
      | some u =>
        obtain ⟨u1, u2⟩ := userNamed_some hu
        rw [if_pos ⟨u, u1, Or.inl u2⟩]
      | none =>
        simp only [Db.addUser]
        by_cases h : ∃ u ∈ db.users, u.username = name ∨ u.handle = hd
        · have : (db.users.any fun u => u.username == name || u.handle == hd) = true := by
            simpa [List.any_eq_true] using h
          rw [if_pos h, if_pos this]
        · have : ¬ (db.users.any fun u => u.username == name || u.handle == hd) = true := by
            simpa [List.any_eq_true] using h
          rw [if_neg h, if_neg this]
          simp
  | authenticationRequest n ch t =>
    show ((authenticationRequest n ch t db).2.users.map _) = db.users.map _
    cases n with
    | none => rfl
    | some name =>
      simp only [authenticationRequest]
      cases db.userNamed name with
      | none => rfl
      | some u =>
        rcases addChallenge_cases db ch t u.id with ha | ⟨-, ha⟩ <;> simp only [ha]
  | registrationResponse f t =>
    obtain ⟨r, g, h, -⟩ := response_frame (app := app) (db := db) (db1 := db) (e := .registrationResponse f t) (f := f) rfl
      ⟨fun _ _ _ _ => ⟨rfl, rfl, rfl⟩, fun _ _ => rfl, fun _ _ => rfl⟩ k
    rw [h]
    rfl
  | authenticationResponse f t =>
    obtain ⟨r, g, h, -⟩ := response_frame (app := app) (db := db) (db1 := db) (e := .authenticationResponse f t) (f := f) rfl
      ⟨fun _ _ _ _ => ⟨rfl, rfl, rfl⟩, fun _ _ => rfl, fun _ _ => rfl⟩ k
    rw [h]
    rfl

/-- C114: the accounts. -/
theorem C114_users (app : App) (evs : List Event) :
    ((run app evs).users.map fun u => (u.username, u.handle)) = evs.foldl opened [] := by
  induction evs using List.reverseRecOn with
  | nil => rfl
  | append_singleton evs e ih =>
    rw [run_snoc, step_opened (C64_consistent_history app evs).keyed, ih, List.foldl_append]
    rfl

/-! ## The claim -/

/-- C114: after every history the tables say what happened, and nothing else. -/
theorem C114_books (app : App) (evs : List Event) : Faithful app evs (run app evs) := by
  have inv := inv_run app evs
  have cons := C64_consistent_history app evs
  refine ⟨C114_users app evs, fun n ch t name => ⟨?_, ?_⟩, fun c hc => ?_, fun id name key => ⟨?_, ?_⟩, cons.owner,
    C114_counters app evs, fun c hc => ⟨fun h pre e m ho ha => ?_, fun h => ?_⟩⟩
  · rintro ⟨u, hu, rfl, hc⟩
    obtain ⟨pre, e, v, ho, hv, hi, h⟩ := inv.challenges _ hc
    obtain rfl : v = u := cons.keyed.userId_unique hv hu hi
    exact ⟨pre, e, ho, h⟩
  · rintro ⟨pre, e, ho, hi⟩
    exact issued_row ho hi
  · obtain ⟨pre, e, v, -, hv, hi, -⟩ := inv.challenges _ hc
    exact ⟨v, hv, hi⟩
  · rintro ⟨u, hu, rfl, c, hc, rfl, rfl, hi⟩
    obtain ⟨pre, e, v, k, ho, hv, hi', hr, hk⟩ := inv.credentials c hc
    obtain rfl : v = u := cons.keyed.userId_unique hv hu (hi'.trans hi)
    exact ⟨pre, e, k, ho, hr, hk⟩
  · rintro ⟨pre, e, k, ho, hr, hk⟩
    obtain ⟨u, row, h1, h2, h3, h4, h5, h6⟩ := registered_row ho hr
    refine ⟨u, h1, h2, row, h3, h4, ?_, h5⟩
    rw [hk] at h6
    injection h6 with h6
    exact h6.symm
  · obtain ⟨m', hm⟩ := login_last ho ha
    rw [(C114_counters app evs c hc m').mpr hm] at h
    cases h
  · cases hm : c.count with
    | none => rfl
    | some m =>
      obtain ⟨pre, e, ho, ha⟩ := lastLogin_occurs ((C114_counters app evs c hc m).mp hm)
      exact absurd ha (h pre e m ho)

/-- C114: nothing is left open: tables that say the same about a history have the same users, and challenges and credentials
with the same contents. -/
theorem C114_determined {app : App} {evs : List Event} {db db' : Db} (h : Faithful app evs db) (h' : Faithful app evs db')
    (k : Keyed db) (k' : Keyed db') : db'.users = db.users ∧ (∀ c, c ∈ db'.challenges ↔ c ∈ db.challenges) ∧
      ∀ c, c ∈ db'.credentials ↔ c ∈ db.credentials := by
  have hu : ∀ {db db' : Db}, Faithful app evs db → Faithful app evs db' → Keyed db → Keyed db' → db'.users = db.users := by
    intro db db' h h' k k'
    have hm := h'.users.trans h.users.symm
    refine List.ext_getElem? fun i => ?_
    have hi := congrArg (fun l => l[i]?) hm
    simp only [List.getElem?_map] at hi
    cases h1 : db.users[i]? with
    | none => rw [h1] at hi; simpa using hi
    | some u =>
      rw [h1] at hi
      cases h2 : db'.users[i]? with
      | none => rw [h2] at hi; cases hi
      | some v =>
        rw [h2] at hi
        have a := k.userIds i u h1
        have b := k'.userIds i v h2
        obtain ⟨iu, nu, hu⟩ := u
        obtain ⟨iv, nv, hv⟩ := v
        simp at hi a b
        obtain ⟨rfl, rfl⟩ := hi
        rw [a, b]
  have hc : ∀ {db db' : Db}, Faithful app evs db → Faithful app evs db' → Keyed db → Keyed db' →
      ∀ c ∈ db.challenges, c ∈ db'.challenges := by
    rintro db db' h h' k k' ⟨n, ch, t, i⟩ hc
    obtain ⟨u, h1, h2⟩ := h.issuedTo _ hc
    subst h2
    obtain ⟨v, v1, v2, v3⟩ := (h'.challenges n ch t u.username).mpr ((h.challenges n ch t u.username).mp ⟨u, h1, rfl, hc⟩)
    rw [hu h h' k k'] at v1
    have := k.find_name v1
    rw [v2, k.find_name h1] at this
    rwa [Option.some.inj this]
  have hr : ∀ {db db' : Db}, Faithful app evs db → Faithful app evs db' → Keyed db → Keyed db' →
      ∀ c ∈ db.credentials, c ∈ db'.credentials := by
    intro db db' h h' k k' c hc
    obtain ⟨u, h1, h2⟩ := h.owner _ hc
    obtain ⟨v, v1, v2, d, d1, d2, d3, d4⟩ := (h'.credentials c.id u.username c.key).mpr
      ((h.credentials c.id u.username c.key).mp ⟨u, h1, rfl, c, hc, rfl, rfl, h2.symm⟩)
    rw [hu h h' k k'] at v1
    have hv := k.find_name v1
    rw [v2, k.find_name h1] at hv
    obtain rfl := Option.some.inj hv
    have hcount : c.count = d.count := by
      cases hcc : c.count with
      | some m => exact ((h'.counters d d1 m).mpr (d2 ▸ (h.counters c hc m).mp hcc)).symm
      | none =>
        have := (h'.unused d d1).mpr (by rw [d2]; exact (h.unused c hc).mp hcc)
        rw [this]
    have : c = d := by
      obtain ⟨a1, a2, a3, a4⟩ := c
      obtain ⟨b1, b2, b3, b4⟩ := d
      simp only at d2 d3 d4 h2 hcount
      rw [d2, d3, d4, h2, hcount]
    rw [this]
    exact d1
  exact ⟨hu h h' k k', fun c => ⟨hc h' h k' k c, hc h h' k k' c⟩, fun c => ⟨hr h' h k' k c, hr h h' k k' c⟩⟩

end WebAuthn.Flask
