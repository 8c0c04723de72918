import Verif.Spec.Answer
import Verif.Props.Granted
import Verif.Props.Contract

/-!
# The reply to every request, by what happened before (C116)
-/

namespace WebAuthn.Flask

open WebAuthn WebAuthn.Spec WebAuthn.Props

variable {app : App} {evs : List Event}

/-! ## Challenges -/

theorem wasIssued_row {n : Nat} {ch : Bytes} {t : Int} :
    WasIssued app evs n ch t ↔ ∃ c ∈ (run app evs).challenges, c.id = n ∧ c.request = ch ∧ c.timestamp = t := by
  constructor
  · rintro ⟨name, pre, e, ho, hi⟩
    obtain ⟨u, -, -, h⟩ := issued_row ho hi
    exact ⟨_, h, rfl, rfl, rfl⟩
  · rintro ⟨c, hc, rfl, rfl, rfl⟩
    obtain ⟨pre, e, u, ho, -, -, hi⟩ := (inv_run app evs).challenges c hc
    exact ⟨u.username, pre, e, ho, hi⟩

theorem next_number : NextNumber app evs ((run app evs).challenges.length + 1) := by
  refine ⟨by omega, fun m => ?_⟩
  have inv := inv_run app evs
  constructor
  · rintro ⟨ch, t, h⟩
    obtain ⟨c, hc, rfl, -⟩ := wasIssued_row.mp h
    obtain ⟨i, hi, hx⟩ := List.mem_iff_getElem.mp hc
    have := inv.challengeIds i c (by rw [List.getElem?_eq_getElem hi, hx])
    omega
  · rintro ⟨h1, h2⟩
    have hi : m - 1 < (run app evs).challenges.length := by omega
    have := inv.challengeIds (m - 1) _ (List.getElem?_eq_getElem hi)
    exact ⟨_, _, wasIssued_row.mpr ⟨_, List.getElem_mem hi, by omega, rfl, rfl⟩⟩

theorem number_unique {n n' : Nat} (h : NextNumber app evs n) (h' : NextNumber app evs n') : n = n' := by
  obtain ⟨h1, h2⟩ := h
  obtain ⟨h3, h4⟩ := h'
  rcases Nat.lt_trichotomy n n' with hl | hl | hl
  · have := ((h2 n).mp ((h4 n).mpr ⟨h1, hl⟩)).2
    omega
  · exact hl
  · have := ((h4 n').mp ((h2 n').mpr ⟨h3, hl⟩)).2
    omega

/-! ## Credentials -/

theorem wasRegistered_row {id : Bytes} : WasRegistered app evs id ↔ ∃ row ∈ (run app evs).credentials, row.id = id := by
  constructor
  · rintro ⟨pre, e, name, k, ho, hr⟩
    obtain ⟨_, row, -, -, h1, h2, -⟩ := registered_row ho hr
    exact ⟨row, h1, h2⟩
  · rintro ⟨row, hrow, rfl⟩
    obtain ⟨pre, e, v, k, ho, -, -, hr, -⟩ := (inv_run app evs).credentials row hrow
    exact ⟨pre, e, _, k, ho, hr⟩

/-- A credential is registered once. -/
theorem registers_new {e : Event} {id : Bytes} {name : String} {k : CPK} (h : Registers app evs e id name k) :
    ¬ WasRegistered app evs id := by
  obtain ⟨f, t, n, c, cdj, ob, o, raw, acd, rfl, h1, h2, rfl, -⟩ := h
  obtain ⟨c', _, _, _, _, _, ⟨_, _, _, _, _, h3, -⟩, -, -, h4⟩ := (C115_registration app evs f t).mp h1
  obtain ⟨-, rfl, -⟩ := submits_unique h2 h3
  rintro ⟨pre, e, name', k', ho, hr⟩
  exact h4 pre e name' k' ho hr

theorem occurs_longer {pre : List Event} {e a : Event} (h : Occurs evs pre e) : Occurs (evs ++ [a]) pre e := by
  obtain ⟨post, rfl⟩ := h
  exact ⟨post ++ [a], by simp⟩

theorem registeredBefore_antisymm {a b : Bytes} (h : RegisteredBefore app evs a b) (h' : RegisteredBefore app evs b a) :
    a = b := by
  obtain ⟨p, x, _, _, hp, hx, p', x', _, _, hp', hx'⟩ := h
  obtain ⟨q, y, _, _, hq, hy, q', y', _, _, hq', hy'⟩ := h'
  rcases occurs_order hp hq with h | h | ⟨rfl, rfl⟩
  · obtain ⟨post, rfl⟩ := h
    obtain ⟨post', rfl⟩ := hp'
    exact absurd ⟨_, _, _, _, ⟨post' ++ x :: post, by simp⟩, hx'⟩ (registers_new hy)
  · obtain ⟨post, rfl⟩ := h
    obtain ⟨post', rfl⟩ := hq'
    exact absurd ⟨_, _, _, _, ⟨post' ++ y :: post, by simp⟩, hy'⟩ (registers_new hx)
  · exact absurd ⟨_, _, _, _, hp', hx'⟩ (registers_new hy)

theorem RegisteredBefore.longer {a b : Bytes} {e : Event} (h : RegisteredBefore app evs a b) :
    RegisteredBefore app (evs ++ [e]) a b := by
  obtain ⟨p, x, n, k, hp, hx⟩ := h
  exact ⟨p, x, n, k, occurs_longer hp, hx⟩

/-- The rows are in the order of the registrations. -/
theorem rows_in_order (app : App) (evs : List Event) :
    ((run app evs).credentials.map CredentialRow.id).Pairwise (RegisteredBefore app evs) := by
  induction evs using List.reverseRecOn with
  | nil => exact List.Pairwise.nil
  | append_singleton evs e ih =>
    have same : (run app (evs ++ [e])).credentials.map CredentialRow.id = (run app evs).credentials.map CredentialRow.id →
        ((run app (evs ++ [e])).credentials.map CredentialRow.id).Pairwise (RegisteredBefore app (evs ++ [e])) := by
      intro h
      rw [h]
      exact ih.imp fun h => h.longer
    have hout := C64_reply app evs e
    generalize hdb : run app (evs ++ [e]) = db' at hout same
    generalize reply app evs e = r at hout
    cases hout with
    | registered f t c ch u k key hr ha hk hn =>
      have hnew : ∃ name k, Registers app evs (.registrationResponse f t) c.rawId name k := by
        have hw : WasRegistered app (evs ++ [.registrationResponse f t]) c.rawId :=
          wasRegistered_row.mpr ⟨⟨c.rawId, none, key, u.id⟩, by rw [hdb]; simp, rfl⟩
        obtain ⟨p, x, name, k', ho, hx⟩ := hw
        rcases occurs_snoc_cases ho with ho | ⟨rfl, rfl⟩
        · obtain ⟨row, h1, h2⟩ := wasRegistered_row.mp ⟨p, x, name, k', ho, hx⟩
          exact absurd h2 (hn row h1)
        · exact ⟨name, k', hx⟩
      obtain ⟨name, k', hnew⟩ := hnew
      simp only [List.map_append, List.map_cons, List.map_nil]
      rw [List.pairwise_append]
      refine ⟨ih.imp fun h => h.longer, List.pairwise_singleton _ _, fun a ha b hb => ?_⟩
      obtain rfl := List.mem_singleton.mp hb
      obtain ⟨row, h1, h2⟩ := List.mem_map.mp ha
      exact ⟨evs, _, name, k', ⟨[], rfl⟩, hnew, wasRegistered_row.mpr ⟨row, h1, h2⟩⟩
    | loggedIn =>
      refine same ?_
      simp only [List.map_map]
      refine List.map_congr_left fun a _ => ?_
      simp only [Function.comp]
      split <;> rfl
    | _ => exact same rfl

/-- The credentials that a user registered, by the table. -/
theorem enrolments_rows {u : User} (hu : u ∈ (run app evs).users) {rows : List CredentialRow}
    (hs : rows.Sublist (run app evs).credentials) (hm : ∀ r ∈ (run app evs).credentials, r ∈ rows ↔ r.userId = u.id) :
    Enrolments app evs u.username (rows.map CredentialRow.id) := by
  have inv := inv_run app evs
  refine ⟨fun id => ⟨fun h => ?_, ?_⟩, (rows_in_order app evs).sublist (hs.map _),
    (List.pairwise_map.mpr inv.credentialIds).sublist (hs.map _)⟩
  · obtain ⟨row, h1, rfl⟩ := List.mem_map.mp h
    have h2 := hs.subset h1
    obtain ⟨pre, e, v, k, ho, hv, hid, hr, -⟩ := inv.credentials row h2
    obtain rfl : v = u := (C64_consistent_history app evs).keyed.userId_unique hv hu (hid.trans ((hm row h2).mp h1))
    exact ⟨pre, e, k, ho, hr⟩
  · rintro ⟨pre, e, k, ho, hr⟩
    obtain ⟨v, row, h1, h2, h3, h4, h5, -⟩ := registered_row ho hr
    obtain rfl : v = u := by
      have := inv.find_name h1
      rw [h2, inv.find_name hu] at this
      exact (Option.some.inj this).symm
    exact List.mem_map.mpr ⟨row, (hm row h3).mpr h5, h4⟩

theorem enrolments_unique {name : String} {ids ids' : List Bytes} (h : Enrolments app evs name ids)
    (h' : Enrolments app evs name ids') : ids = ids' := by
  refine List.Perm.eq_of_pairwise (fun _ _ _ _ => registeredBefore_antisymm) h.order h'.order ?_
  rw [List.perm_ext_iff_of_nodup h.once h'.once]
  exact fun id => (h.mem id).trans (h'.mem id).symm

theorem keyOnFile_row {id : Bytes} {owner : String} {h key : Bytes} (hf : KeyOnFile app evs id owner h key) :
    ∃ v row, v ∈ (run app evs).users ∧ v.username = owner ∧ v.handle = h ∧ row ∈ (run app evs).credentials ∧ row.id = id ∧
      row.userId = v.id ∧ row.key = key := by
  obtain ⟨pre, e, k, ho, hr, hk, ha⟩ := hf
  obtain ⟨v, row, h1, h2, h3, h4, h5, h6⟩ := registered_row ho hr
  obtain ⟨w, w1, w2, w3⟩ := (account_row (app := app)).mp ha
  have inv := inv_run app evs
  obtain rfl : v = w := by
    have := inv.find_name h1
    rw [h2, ← w2, inv.find_name w1] at this
    exact (Option.some.inj this).symm
  rw [hk] at h6
  injection h6 with h6
  exact ⟨v, row, h1, w2, w3, h3, h4, h5, h6.symm⟩

theorem row_keyOnFile {row : CredentialRow} (hrow : row ∈ (run app evs).credentials) :
    ∃ v ∈ (run app evs).users, v.id = row.userId ∧ KeyOnFile app evs row.id v.username v.handle row.key := by
  obtain ⟨pre, e, v, k, ho, hv, hid, hr, hk⟩ := (inv_run app evs).credentials row hrow
  exact ⟨v, hv, hid, pre, e, k, ho, hr, hk, account_row.mpr ⟨v, hv, rfl, rfl⟩⟩

theorem stored_onFile {row : CredentialRow} {cd : CredentialData} (hrow : row ∈ (run app evs).credentials)
    (h : StoredAs app (run app evs) row cd) : OnFile app evs row.id cd := by
  obtain ⟨d, rest, v, s1, s2, s3, s4, s5, s6, s7⟩ := h
  obtain ⟨w, hw, hid, hf⟩ := row_keyOnFile hrow
  obtain rfl : v = w := (C64_consistent_history app evs).keyed.userId_unique s3 hw (s4.trans hid.symm)
  exact ⟨_, _, _, hf, ⟨d, rest, s1, s2⟩, s6, s7, fun m => s5 ▸ C114_counters app evs row hrow m⟩

theorem onFile_stored {id : Bytes} {cd : CredentialData} (h : OnFile app evs id cd) :
    ∃ row ∈ (run app evs).credentials, row.id = id ∧ StoredAs app (run app evs) row cd := by
  obtain ⟨owner, hd, key, hf, ⟨d, rest, s1, s2⟩, s6, s7, hl⟩ := h
  obtain ⟨v, row, h1, rfl, rfl, h3, rfl, h5, rfl⟩ := keyOnFile_row hf
  refine ⟨row, h3, rfl, d, rest, v, s1, s2, h1, h5.symm, Option.ext fun m => ?_, s6, s7⟩
  rw [hl m]
  exact (C114_counters app evs row h3 m).symm

/-! ## Forms -/

theorem readable_submits {f : Form} {cid : String} {c : Credential} {name : String} {n : Nat} (h : Readable app f cid c name)
    (hn : app.rowId cid = some n) : Submits app f n c name := by
  obtain ⟨text, d, h1, h2, h3, h4, h5⟩ := h
  exact ⟨cid, text, d, h1, hn, h2, h3, h4, h5⟩

theorem submits_readable {f : Form} {c : Credential} {name : String} {n : Nat} (h : Submits app f n c name) :
    ∃ cid, Readable app f cid c name ∧ app.rowId cid = some n := by
  obtain ⟨cid, text, d, h1, hn, h2, h3, h4, h5⟩ := h
  exact ⟨cid, ⟨text, d, h1, h2, h3, h4, h5⟩, hn⟩

theorem unheard_iff {Kind : Response → Prop} {f : Form} {now : Int} {r : Reply} :
    Unread app Kind f now (run app evs) r ↔ Unheard app Kind evs f now r := by
  constructor
  · intro h
    cases h with
    | interrupted e h => exact .interrupted e h
    | unreadable h h' => exact .unreadable h h'
    | kind cid c name h h' => exact .kind cid c name h h'
    | challenge cid c name h h' hn =>
      refine .challenge cid c name h h' fun n ch t hr hw => ?_
      obtain ⟨x, hx, rfl, -⟩ := wasIssued_row.mp hw
      exact hn x hx hr
    | user cid c name ch h h' hc hr hn =>
      refine .user ch.id c name ch.request ch.timestamp (readable_submits h hr) h' (wasIssued_row.mpr ⟨ch, hc, rfl, rfl, rfl⟩)
        fun hd ha => ?_
      obtain ⟨u, hu, h1, -⟩ := (account_row (app := app)).mp ha
      exact hn u hu h1
    | late cid c ch u h h' hc hr hu hl =>
      exact .late ch.id c u.username u.handle ch.request ch.timestamp (readable_submits h hr) h'
        (wasIssued_row.mpr ⟨ch, hc, rfl, rfl, rfl⟩) ((account_row (app := app)).mpr ⟨u, hu, rfl, rfl⟩) hl
  · intro h
    cases h with
    | interrupted e h => exact .interrupted e h
    | unreadable h h' => exact .unreadable h h'
    | kind cid c name h h' => exact .kind cid c name h h'
    | challenge cid c name h h' hn =>
      exact .challenge cid c name h h' fun x hx hr => hn x.id _ _ hr (wasIssued_row.mpr ⟨x, hx, rfl, rfl, rfl⟩)
    | user n c name ch t h h' hw hn =>
      obtain ⟨x, hx, rfl, -⟩ := wasIssued_row.mp hw
      obtain ⟨cid, hr, hi⟩ := submits_readable h
      exact .user cid c name x hr h' hx hi fun u hu hun =>
        hn u.handle ((account_row (app := app)).mpr ⟨u, hu, hun, rfl⟩)
    | late n c name hd ch t h h' hw ha hl =>
      obtain ⟨x, hx, rfl, rfl, rfl⟩ := wasIssued_row.mp hw
      obtain ⟨cid, hr, hi⟩ := submits_readable h
      obtain ⟨u, hu, rfl, rfl⟩ := (account_row (app := app)).mp ha
      exact .late cid c x u hr h' hx hi hu hl

/-! ## The user of a request -/

theorem userFor_account {name : String} {h ch : Bytes} {t : Int} {u : User} {users : List User}
    (hu : UserFor (run app evs) name h u users) :
    AccountOpened (evs ++ [.registrationRequest (some name) h ch t]) name u.handle := by
  rw [AccountOpened, List.foldl_append, ← C114_users app evs]
  cases hu with
  | known u hm hn =>
    have : ∃ a ∈ ((run app evs).users.map fun u => (u.username, u.handle)), a.1 = name ∨ a.2 = h :=
      ⟨_, List.mem_map.mpr ⟨u, hm, rfl⟩, Or.inl hn⟩
    simp only [List.foldl_cons, List.foldl_nil, opened, this, if_true]
    exact List.mem_map.mpr ⟨u, hm, by rw [hn]⟩
  | new hn =>
    have : ¬ ∃ a ∈ ((run app evs).users.map fun u => (u.username, u.handle)), a.1 = name ∨ a.2 = h := by
      rintro ⟨a, ha, hor⟩
      obtain ⟨v, hv, rfl⟩ := List.mem_map.mp ha
      rcases hor with hor | hor
      · exact (hn v hv).1 hor
      · exact (hn v hv).2 hor
    simp only [List.foldl_cons, List.foldl_nil, opened, this, if_false]
    simp

theorem account_userFor {name : String} {h h' ch : Bytes} {t : Int}
    (ha : AccountOpened (evs ++ [.registrationRequest (some name) h ch t]) name h') :
    ∃ u users, UserFor (run app evs) name h u users ∧ u.handle = h' := by
  rw [AccountOpened, List.foldl_append, ← C114_users app evs] at ha
  simp only [List.foldl_cons, List.foldl_nil, opened] at ha
  split at ha
  · obtain ⟨u, hu, he⟩ := List.mem_map.mp ha
    injection he with h1 h2
    exact ⟨u, _, .known u hu h1, h2⟩
  · next hn =>
    have hn' : ∀ u ∈ (run app evs).users, u.username ≠ name ∧ u.handle ≠ h := fun u hu =>
      ⟨fun h1 => hn ⟨_, List.mem_map.mpr ⟨u, hu, rfl⟩, Or.inl h1⟩, fun h1 => hn ⟨_, List.mem_map.mpr ⟨u, hu, rfl⟩, Or.inr h1⟩⟩
    rcases List.mem_append.mp ha with ha | ha
    · obtain ⟨u, hu, he⟩ := List.mem_map.mp ha
      injection he with h1 h2
      exact absurd h1 (hn' u hu).1
    · obtain he := List.mem_singleton.mp ha
      injection he with h1 h2
      exact ⟨_, _, .new hn', h2.symm⟩

theorem unopened_iff {name : String} : (∀ h, ¬ AccountOpened evs name h) ↔ ∀ u ∈ (run app evs).users, u.username ≠ name := by
  constructor
  · exact fun hn u hu h => hn u.handle (account_row.mpr ⟨u, hu, h, rfl⟩)
  · intro hn h ha
    obtain ⟨u, hu, h1, -⟩ := (account_row (app := app)).mp ha
    exact hn u hu h1

theorem unissued_iff {ch : Bytes} : (∀ m t, ¬ WasIssued app evs m ch t) ↔ ∀ c ∈ (run app evs).challenges, c.request ≠ ch := by
  constructor
  · exact fun hn c hc h => hn c.id c.timestamp (wasIssued_row.mpr ⟨c, hc, rfl, h, rfl⟩)
  · intro hn m t hw
    obtain ⟨c, hc, -, h, -⟩ := wasIssued_row.mp hw
    exact hn c hc h

theorem unregistered_iff {id : Bytes} : ¬ WasRegistered app evs id ↔ ∀ row ∈ (run app evs).credentials, row.id ≠ id := by
  rw [wasRegistered_row]
  simp

/-! ## The claim -/

/-- C116: every reply of the application is one that the history calls for. -/
theorem C116_reply (app : App) (evs : List Event) (e : Event) : Answer app evs e (reply app evs e) := by
  have h := C64_reply app evs e
  generalize run app (evs ++ [e]) = db' at h
  generalize reply app evs e = r at h
  cases h with
  | registrationNoName h ch t => exact .registrationNoName h ch t
  | handleTaken name h ch t v h1 h2 h3 =>
    exact .handleTaken name v.username h ch t (unopened_iff.mpr h1) (account_row.mpr ⟨v, h2, rfl, h3⟩)
  | registrationChallengeTaken name h ch t u users c h1 h2 h3 =>
    exact .registrationChallengeTaken name h u.handle ch t c.id c.timestamp (userFor_account h1)
      (wasIssued_row.mpr ⟨c, h2, rfl, h3, rfl⟩)
  | registrationIssued name h ch t u users v h1 h2 h3 =>
    exact .registrationIssued name h u.handle ch t _ v (userFor_account h1) (unissued_iff.mpr h2) next_number h3
  | loginNoName ch t => exact .loginNoName ch t
  | loginNoUser name ch t h1 => exact .loginNoUser name ch t (unopened_iff.mpr h1)
  | loginChallengeTaken u ch t c h1 h2 h3 =>
    exact .loginChallengeTaken u.username u.handle ch t c.id c.timestamp (account_row.mpr ⟨u, h1, rfl, rfl⟩)
      (wasIssued_row.mpr ⟨c, h2, rfl, h3, rfl⟩)
  | loginIssued u ch t rows v h1 h2 h3 h4 h5 =>
    exact .loginIssued u.username u.handle ch t _ _ v (account_row.mpr ⟨u, h1, rfl, rfl⟩) (unissued_iff.mpr h2) next_number
      (enrolments_rows h1 h3 h4) h5
  | registrationUnread f t r h => exact .registrationUnheard f t r (unheard_iff.mp h)
  | registrationRefused f t c ch u x y r hr h1 h2 h3 =>
    exact .registrationRefused f t c ch.request u.username u.handle x y r (read_presents hr) h1 h2 h3
  | registrationNoKey f t c ch u k e x r hr h1 h2 h3 h4 =>
    exact .registrationNoKey f t c ch.request u.username u.handle k e x r (read_presents hr) h1 h2 h3 h4
  | registrationTaken f t c ch u k key row hr h1 h2 h3 h4 =>
    exact .registrationTaken f t c ch.request u.username u.handle k key (read_presents hr) h1 h2
      (wasRegistered_row.mpr ⟨row, h3, h4⟩)
  | registered f t c ch u k key hr h1 h2 h3 =>
    exact .registered f t c ch.request u.username u.handle k key (read_presents hr) h1 h2 (unregistered_iff.mpr h3)
  | loginUnread f t r h => exact .loginUnheard f t r (unheard_iff.mp h)
  | loginUnknown f t c ch u hr h1 =>
    exact .loginUnknown f t c ch.request u.username u.handle (read_presents hr) (unregistered_iff.mpr h1)
  | loginNoKey f t c ch u row e x r hr h1 h2 h3 h4 h5 =>
    obtain ⟨v, -, -, hf⟩ := row_keyOnFile h1
    exact .loginNoKey f t c ch.request u.username u.handle v.username v.handle row.key e x r (read_presents hr) (h2 ▸ hf) h3 h4
      h5
  | loginRefused f t c ch u row cd x y r hr h1 h2 h3 h4 h5 h6 =>
    exact .loginRefused f t c ch.request u.username u.handle cd x y r (read_presents hr) (h2 ▸ stored_onFile h1 h3) h4 h5 h6
  | loggedIn f t c ch u row cd user rp ad hr h1 h2 h3 h4 =>
    exact .loggedIn f t c ch.request u.username u.handle cd user rp ad (read_presents hr) (h2 ▸ stored_onFile h1 h3) h4

/-- An answer is an outcome. -/
theorem answer_outcome {e : Event} {r : Reply} (h : Answer app evs e r) : ∃ db', Outcome app (run app evs) e r db' := by
  cases h with
  | registrationNoName h ch t => exact ⟨_, .registrationNoName h ch t⟩
  | handleTaken name name' h ch t h1 h2 =>
    obtain ⟨v, hv, -, h3⟩ := (account_row (app := app)).mp h2
    exact ⟨_, .handleTaken name h ch t v (unopened_iff.mp h1) hv h3⟩
  | registrationChallengeTaken name h h' ch t n t' h1 h2 =>
    obtain ⟨u, users, hu, -⟩ := account_userFor (app := app) h1
    obtain ⟨c, hc, -, h3, -⟩ := wasIssued_row.mp h2
    exact ⟨_, .registrationChallengeTaken name h ch t u users c hu hc h3⟩
  | registrationIssued name h h' ch t n v h1 h2 h3 h4 =>
    obtain ⟨u, users, hu, rfl⟩ := account_userFor (app := app) h1
    obtain rfl := number_unique h3 next_number
    exact ⟨_, .registrationIssued name h ch t u users v hu (unissued_iff.mp h2) h4⟩
  | loginNoName ch t => exact ⟨_, .loginNoName ch t⟩
  | loginNoUser name ch t h1 => exact ⟨_, .loginNoUser name ch t (unopened_iff.mp h1)⟩
  | loginChallengeTaken name h ch t n t' h1 h2 =>
    obtain ⟨u, hu, rfl, -⟩ := (account_row (app := app)).mp h1
    obtain ⟨c, hc, -, h3, -⟩ := wasIssued_row.mp h2
    exact ⟨_, .loginChallengeTaken u ch t c hu hc h3⟩
  | loginIssued name h ch t n ids v h1 h2 h3 h4 h5 =>
    obtain ⟨u, hu, rfl, -⟩ := (account_row (app := app)).mp h1
    obtain rfl := number_unique h3 next_number
    have hm : ∀ r ∈ (run app evs).credentials, (r ∈ (run app evs).credentials.filter fun c => c.userId = u.id) ↔
        r.userId = u.id := fun r hr => by simp [List.mem_filter, hr]
    obtain rfl := enrolments_unique h4 (enrolments_rows hu List.filter_sublist hm)
    exact ⟨_, .loginIssued u ch t _ v hu (unissued_iff.mp h2) List.filter_sublist hm h5⟩
  | registrationUnheard f t r h => exact ⟨_, .registrationUnread f t r (unheard_iff.mpr h)⟩
  | registrationRefused f t c ch name h x y r hp h1 h2 h3 =>
    obtain ⟨row, u, hr, rfl, rfl, rfl⟩ := presents_read hp
    exact ⟨_, .registrationRefused f t c row u x y r hr h1 h2 h3⟩
  | registrationNoKey f t c ch name h k e x r hp h1 h2 h3 h4 =>
    obtain ⟨row, u, hr, rfl, rfl, rfl⟩ := presents_read hp
    exact ⟨_, .registrationNoKey f t c row u k e x r hr h1 h2 h3 h4⟩
  | registrationTaken f t c ch name h k key hp h1 h2 h3 =>
    obtain ⟨row, u, hr, rfl, rfl, rfl⟩ := presents_read hp
    obtain ⟨x, hx, hid⟩ := wasRegistered_row.mp h3
    exact ⟨_, .registrationTaken f t c row u k key x hr h1 h2 hx hid⟩
  | registered f t c ch name h k key hp h1 h2 h3 =>
    obtain ⟨row, u, hr, rfl, rfl, rfl⟩ := presents_read hp
    exact ⟨_, .registered f t c row u k key hr h1 h2 (unregistered_iff.mp h3)⟩
  | loginUnheard f t r h => exact ⟨_, .loginUnread f t r (unheard_iff.mpr h)⟩
  | loginUnknown f t c ch name h hp h1 =>
    obtain ⟨row, u, hr, rfl, rfl, rfl⟩ := presents_read hp
    exact ⟨_, .loginUnknown f t c row u hr (unregistered_iff.mp h1)⟩
  | loginNoKey f t c ch name h owner h' key e x r hp h1 h2 h3 h4 =>
    obtain ⟨row, u, hr, rfl, rfl, rfl⟩ := presents_read hp
    obtain ⟨v, a, -, -, -, h5, h6, -, rfl⟩ := keyOnFile_row h1
    exact ⟨_, .loginNoKey f t c row u a e x r hr h5 h6 h2 h3 h4⟩
  | loginRefused f t c ch name h cd x y r hp h1 h2 h3 h4 =>
    obtain ⟨row, u, hr, rfl, rfl, rfl⟩ := presents_read hp
    obtain ⟨a, h5, h6, h7⟩ := onFile_stored h1
    exact ⟨_, .loginRefused f t c row u a cd x y r hr h5 h6 h7 h2 h3 h4⟩
  | loggedIn f t c ch name h cd user rp ad hp h1 h2 =>
    obtain ⟨row, u, hr, rfl, rfl, rfl⟩ := presents_read hp
    obtain ⟨a, h5, h6, h7⟩ := onFile_stored h1
    exact ⟨_, .loggedIn f t c row u a cd user rp ad hr h5 h6 h7 h2⟩

/-- C116: and the history calls for no other, but for the order of the members of options. -/
theorem C116_only {app : App} {evs : List Event} {e : Event} {r : Reply} (h : Answer app evs e r) :
    SameReply r (reply app evs e) := by
  obtain ⟨db', h⟩ := answer_outcome h
  have := (C64_only (C64_consistent_history app evs) h).1
  simpa [reply] using this

/-- C116: if an answer is no options, it is the reply. -/
theorem C116_iff (app : App) (evs : List Event) (e : Event) {r : Reply} (hr : ∀ v, r ≠ .json v) :
    reply app evs e = r ↔ Answer app evs e r := by
  constructor
  · rintro rfl
    exact C116_reply app evs e
  · intro h
    obtain ⟨db', h⟩ := answer_outcome h
    exact (C64_reply_only h hr).1

end WebAuthn.Flask
