import Verif.Lemmas.Flask

/-!
# The example application (C49, C50, C51)
-/

namespace WebAuthn.Flask

open WebAuthn WebAuthn.Spec WebAuthn.Props

/-! ## What every history leaves in the database -/

/-- The rows of the tables have their origin in the history. -/
structure Inv (app : App) (evs : List Event) (db : Db) : Prop where
  userIds : ∀ (i : Nat) (u : User), db.users[i]? = some u → u.id = i + 1
  names : db.users.Pairwise fun a b => a.username ≠ b.username
  handles : db.users.Pairwise fun a b => a.handle ≠ b.handle
  challengeIds : ∀ (i : Nat) (c : Challenge), db.challenges[i]? = some c → c.id = i + 1
  credentialIds : db.credentials.Pairwise fun a b => a.id ≠ b.id
  challenges : ∀ c ∈ db.challenges, ∃ pre e u, Occurs evs pre e ∧ u ∈ db.users ∧ u.id = c.userId ∧
    Issues app pre e c.id c.request c.timestamp u.username
  credentials : ∀ c ∈ db.credentials, ∃ pre e u k, Occurs evs pre e ∧ u ∈ db.users ∧
    u.id = c.userId ∧ Registers app pre e c.id u.username k ∧ coseKey app.env k = .ok c.key
  counts : ∀ c ∈ db.credentials, ∀ m, c.count = some m → ∃ pre e, Occurs evs pre e ∧
    Authenticates app pre e c.id m

section
variable {app : App} {evs : List Event} {db : Db}

theorem Inv.empty : Inv app [] {} where
  userIds := by simp
  names := .nil
  handles := .nil
  challengeIds := by simp
  credentialIds := .nil
  challenges := by simp
  credentials := by simp
  counts := by simp

theorem Inv.snoc (h : Inv app evs db) (e : Event) : Inv app (evs ++ [e]) db where
  userIds := h.userIds
  names := h.names
  handles := h.handles
  challengeIds := h.challengeIds
  credentialIds := h.credentialIds
  challenges := fun c hc =>
    let ⟨pre, e', u, h1, h2⟩ := h.challenges c hc
    ⟨pre, e', u, occurs_snoc h1, h2⟩
  credentials := fun c hc =>
    let ⟨pre, e', u, k, h1, h2⟩ := h.credentials c hc
    ⟨pre, e', u, k, occurs_snoc h1, h2⟩
  counts := fun c hc m hm =>
    let ⟨pre, e', h1, h2⟩ := h.counts c hc m hm
    ⟨pre, e', occurs_snoc h1, h2⟩

theorem getElem?_snoc {α : Type} {l : List α} {a b : α} {i : Nat} (h : (l ++ [a])[i]? = some b) :
    l[i]? = some b ∨ i = l.length ∧ b = a := by
  rw [List.getElem?_append] at h
  split at h
  · exact Or.inl h
  · right
    have : i - l.length = 0 := by
      by_contra hn
      rw [List.getElem?_eq_none (by simp; omega)] at h
      cases h
    rw [this] at h
    simp only [List.getElem?_cons_zero, Option.some.injEq] at h
    exact ⟨by omega, h.symm⟩

theorem pairwise_snoc {α : Type} {R : α → α → Prop} {l : List α} {a : α} (h : l.Pairwise R)
    (ha : ∀ b ∈ l, R b a) : (l ++ [a]).Pairwise R := by
  rw [List.pairwise_append]
  refine ⟨h, List.pairwise_singleton _ _, fun x hx y hy => ?_⟩
  rw [List.mem_singleton] at hy
  subst hy
  exact ha x hx

theorem Inv.addUser (h : Inv app evs db) {name : String} {hd : Bytes}
    (hf : ∀ u ∈ db.users, u.username ≠ name ∧ u.handle ≠ hd) :
    Inv app evs { db with users := db.users ++ [⟨db.users.length + 1, name, hd⟩] } where
  userIds := by
    intro i u hu
    rcases getElem?_snoc hu with hu | ⟨rfl, rfl⟩
    · exact h.userIds i u hu
    · rfl
  names := pairwise_snoc h.names fun u hu => (hf u hu).1
  handles := pairwise_snoc h.handles fun u hu => (hf u hu).2
  challengeIds := h.challengeIds
  credentialIds := h.credentialIds
  challenges := fun c hc =>
    let ⟨pre, e', u, h1, h2, h3⟩ := h.challenges c hc
    ⟨pre, e', u, h1, List.mem_append_left _ h2, h3⟩
  credentials := fun c hc =>
    let ⟨pre, e', u, k, h1, h2, h3⟩ := h.credentials c hc
    ⟨pre, e', u, k, h1, List.mem_append_left _ h2, h3⟩
  counts := h.counts

theorem Inv.addChallenge (h : Inv app evs db) {u : User} (hu : u ∈ db.users) {pre : List Event}
    {e : Event} {ch : Bytes} {t : Int} (ho : Occurs evs pre e)
    (hi : Issues app pre e (db.challenges.length + 1) ch t u.username) :
    Inv app evs { db with
      challenges := db.challenges ++ [⟨db.challenges.length + 1, ch, t, u.id⟩] } where
  userIds := h.userIds
  names := h.names
  handles := h.handles
  challengeIds := by
    intro i c hc
    rcases getElem?_snoc hc with hc | ⟨rfl, rfl⟩
    · exact h.challengeIds i c hc
    · rfl
  credentialIds := h.credentialIds
  challenges := by
    intro c hc
    rcases List.mem_append.mp hc with hc | hc
    · exact h.challenges c hc
    · rw [List.mem_singleton] at hc
      subst hc
      exact ⟨pre, e, u, ho, hu, rfl, hi⟩
  credentials := h.credentials
  counts := h.counts

theorem Inv.addCredential (h : Inv app evs db) {u : User} (hu : u ∈ db.users) {pre : List Event}
    {e : Event} {id key : Bytes} {k : CPK} (ho : Occurs evs pre e)
    (hf : ∀ c ∈ db.credentials, c.id ≠ id) (hr : Registers app pre e id u.username k)
    (hk : coseKey app.env k = .ok key) :
    Inv app evs { db with credentials := db.credentials ++ [⟨id, none, key, u.id⟩] } where
  userIds := h.userIds
  names := h.names
  handles := h.handles
  challengeIds := h.challengeIds
  credentialIds := pairwise_snoc h.credentialIds hf
  challenges := h.challenges
  credentials := by
    intro c hc
    rcases List.mem_append.mp hc with hc | hc
    · exact h.credentials c hc
    · rw [List.mem_singleton] at hc
      subst hc
      exact ⟨pre, e, u, k, ho, hu, rfl, hr, hk⟩
  counts := by
    intro c hc m hm
    rcases List.mem_append.mp hc with hc | hc
    · exact h.counts c hc m hm
    · rw [List.mem_singleton] at hc
      subst hc
      cases hm

theorem setCount_keeps (id : Bytes) (n : Int) (c : CredentialRow) :
    (setCount id n c).id = c.id ∧ (setCount id n c).key = c.key ∧
      (setCount id n c).userId = c.userId := by
  unfold setCount
  split <;> exact ⟨rfl, rfl, rfl⟩

theorem Inv.setCounts (h : Inv app evs db) {id : Bytes} {n : Int} {pre : List Event} {e : Event}
    (ho : Occurs evs pre e) (ha : Authenticates app pre e id n) :
    Inv app evs { db with credentials := db.credentials.map (setCount id n) } where
  userIds := h.userIds
  names := h.names
  handles := h.handles
  challengeIds := h.challengeIds
  credentialIds := by
    refine List.Pairwise.map _ (fun a b hab => ?_) h.credentialIds
    rw [(setCount_keeps id n a).1, (setCount_keeps id n b).1]
    exact hab
  challenges := h.challenges
  credentials := by
    intro c hc
    obtain ⟨c', hc', rfl⟩ := List.mem_map.mp hc
    obtain ⟨e1, e2, e3⟩ := setCount_keeps id n c'
    rw [e1, e2, e3]
    exact h.credentials c' hc'
  counts := by
    intro c hc m hm
    obtain ⟨c', hc', rfl⟩ := List.mem_map.mp hc
    unfold setCount at hm ⊢
    split at hm
    · rename_i hid
      obtain rfl : c'.id = id := by simpa using hid
      cases hm
      rw [if_pos hid]
      exact ⟨pre, e, ho, ha⟩
    · rename_i hid
      rw [if_neg hid]
      exact h.counts c' hc' m hm

/-- Two users with the same handle are one. -/
theorem Inv.handle_unique (h : Inv app evs db) {u v : User} (hu : u ∈ db.users) (hv : v ∈ db.users)
    (he : u.handle = v.handle) : u = v := by
  by_contra hn
  have : ∀ (l : List User), l.Pairwise (fun a b => a.handle ≠ b.handle) → u ∈ l → v ∈ l → False := by
    intro l
    induction l with
    | nil => intro _ h; cases h
    | cons a l ih =>
      intro hp hu hv
      rw [List.pairwise_cons] at hp
      rcases List.mem_cons.mp hu with hu' | hu' <;> rcases List.mem_cons.mp hv with hv' | hv'
      · exact hn (hu'.trans hv'.symm)
      · exact hp.1 v hv' (hu' ▸ he)
      · exact hp.1 u hu' (hv' ▸ he.symm)
      · exact ih hp.2 hu' hv'
  exact this _ h.handles hu hv

/-- Two users with the same number are one. -/
theorem Inv.userId_unique (h : Inv app evs db) {u v : User} (hu : u ∈ db.users) (hv : v ∈ db.users)
    (he : u.id = v.id) : u = v := by
  obtain ⟨i, hi⟩ := List.mem_iff_getElem?.mp hu
  obtain ⟨j, hj⟩ := List.mem_iff_getElem?.mp hv
  have h1 := h.userIds i u hi
  have h2 := h.userIds j v hj
  have : i = j := by omega
  subst this
  rw [hi] at hj
  exact Option.some.inj hj

theorem registrationResponse_eq {f : Form} {now : Int} {c : Credential} {ch : Challenge} {u : User}
    (h : readResponse app true f now db = .ok (c, ch, u)) {r : Py Unit} {db' : Db}
    (hh : handleAttestation app.env (registrar app.env) (attestationArgs c ch u) db = (r, db')) :
    registrationResponse app f now db =
      (conclude "Could not handle credential attestation" r, db') := by
  unfold registrationResponse
  rw [h]
  simp only [hh]

theorem authenticationResponse_eq {f : Form} {now : Int} {c : Credential} {ch : Challenge} {u : User}
    (h : readResponse app false f now db = .ok (c, ch, u)) {r : Py Unit} {db' : Db}
    (hh : handleAssertion app.env (registrar app.env) (assertionArgs c ch u) db = (r, db')) :
    authenticationResponse app f now db =
      (conclude "Could not handle credential assertion" r, db') := by
  unfold authenticationResponse
  rw [h]
  simp only [hh]

theorem Inv.step (h : Inv app evs (run app evs)) (e : Event) :
    Inv app (evs ++ [e]) (run app (evs ++ [e])) := by
  rw [run_snoc]
  have h' := h.snoc e
  cases e with
  | registrationRequest name hd ch t =>
    show Inv app _ (registrationRequest name hd ch t (run app evs)).2
    cases name with
    | none => exact h'
    | some name =>
      have key : ∀ (u : User) (db : Db), Inv app (evs ++ [.registrationRequest (some name) hd ch t]) db →
          u ∈ db.users → u.username = name → findOrAddUser (run app evs) name hd = (.ok u, db) →
          Inv app (evs ++ [.registrationRequest (some name) hd ch t])
            (registrationRequest (some name) hd ch t (run app evs)).2 := by
        intro u db hdb hu hn hf
        rcases addChallenge_cases db ch t u.id with ha | ⟨-, ha⟩
        · simp only [registrationRequest, hf, ha]
          exact hdb
        · simp only [registrationRequest, hf, ha]
          refine hdb.addChallenge hu (occurs_last _ _) ⟨?_, Or.inl ⟨hd, by rw [hn]⟩⟩
          obtain ⟨v, hv, -⟩ := creation_reply (db.challenges.length + 1)
            { name := name, id := u.handle, displayName := name } ch
          refine ⟨"creationOptions", v, ?_⟩
          show (registrationRequest (some name) hd ch t (run app evs)).1 = _
          simp only [registrationRequest, hf, ha]
          exact hv
      rcases findOrAddUser_cases (run app evs) name hd with ⟨u, hu, hn, hf⟩ | hf | ⟨hfresh, hf⟩
      · exact key u _ h' hu hn hf
      · simp only [registrationRequest, hf]
        exact h'
      · exact key _ _ (h'.addUser hfresh) (by simp) rfl hf
  | authenticationRequest name ch t =>
    show Inv app _ (authenticationRequest name ch t (run app evs)).2
    cases name with
    | none => exact h'
    | some name =>
      cases hu : (run app evs).userNamed name with
      | none =>
        simp only [authenticationRequest, hu]
        exact h'
      | some u =>
        obtain ⟨hu1, hu2⟩ := userNamed_some hu
        rcases addChallenge_cases (run app evs) ch t u.id with ha | ⟨-, ha⟩
        · simp only [authenticationRequest, hu, ha]
          exact h'
        · simp only [authenticationRequest, hu, ha]
          refine h'.addChallenge hu1 (occurs_last _ _) ⟨?_, Or.inr (by rw [hu2])⟩
          obtain ⟨v, hv, -⟩ := request_reply ((run app evs).challenges.length + 1)
            ((run app evs).credentials.filter fun c => c.userId == u.id) ch
          refine ⟨"requestOptions", v, ?_⟩
          show (authenticationRequest (some name) ch t (run app evs)).1 = _
          simp only [authenticationRequest, hu, ha]
          exact hv
  | registrationResponse f t =>
    show Inv app _ (registrationResponse app f t (run app evs)).2
    cases hr : readResponse app true f t (run app evs) with
    | error r =>
      simp only [registrationResponse, hr]
      exact h'
    | ok x =>
      obtain ⟨c, ch, u⟩ := x
      obtain ⟨n, name, h1, -, h3, h4, -⟩ := readResponse_ok_iff.mp hr
      rcases hh : handleAttestation app.env (registrar app.env) (attestationArgs c ch u) (run app evs)
        with ⟨r, db'⟩
      rw [registrationResponse_eq hr hh]
      rcases handleAttestation_db app.env (attestationArgs c ch u) (run app evs) with ⟨h5, -⟩ |
        ⟨o, raw, acd, u', k, kb, ⟨cdj, ob, h5, -, h5', -⟩, h6, h7, h8, h9, h10, h11⟩
      · rw [hh] at h5
        rw [show db' = _ from h5]
        exact h'
      · rw [hh] at h11
        obtain ⟨rfl, rfl⟩ := Prod.mk.inj h11
        obtain ⟨hu1, hu2⟩ := userNamed_some h4
        obtain ⟨hv1, hv2⟩ := userOfHandle_some h7
        obtain rfl : u' = u := h.handle_unique hv1 hu1 hv2
        refine h'.addCredential hu1 (occurs_last _ _) h10 ?_ h9
        refine ⟨f, t, n, c, cdj, ob, o, raw, acd, rfl, ?_, hu2 ▸ h1, rfl, h5, h5', h6, h8⟩
        show (registrationResponse app f t (run app evs)).1 = _
        rw [registrationResponse_eq hr hh]
        rfl
  | authenticationResponse f t =>
    show Inv app _ (authenticationResponse app f t (run app evs)).2
    cases hr : readResponse app false f t (run app evs) with
    | error r =>
      simp only [authenticationResponse, hr]
      exact h'
    | ok x =>
      obtain ⟨c, ch, u⟩ := x
      obtain ⟨n, name, h1, -, -, -, -⟩ := readResponse_ok_iff.mp hr
      rcases hh : handleAssertion app.env (registrar app.env) (assertionArgs c ch u) (run app evs)
        with ⟨r, db'⟩
      rw [authenticationResponse_eq hr hh]
      rcases handleAssertion_db app.env (assertionArgs c ch u) (run app evs) with ⟨h5, -⟩ |
        ⟨cd, user, rp, ad, -, hok, h11⟩
      · rw [hh] at h5
        rw [show db' = _ from h5]
        exact h'
      · rw [hh] at h11
        obtain ⟨rfl, rfl⟩ := Prod.mk.inj h11
        refine h'.setCounts (occurs_last _ _) ⟨f, t, n, c, name, ad.signCount, rfl, ?_, h1, rfl,
          rfl, assertionOk_counter hok⟩
        show (authenticationResponse app f t (run app evs)).1 = _
        rw [authenticationResponse_eq hr hh]
        rfl

/-- Every history keeps the invariant. -/
theorem inv_run (app : App) (evs : List Event) : Inv app evs (run app evs) := by
  induction evs using List.reverseRecOn with
  | nil => exact Inv.empty
  | append_singleton evs e ih => exact ih.step e

/-- A successful registration response, in terms of the specification. -/
theorem registration_success {app : App} {evs : List Event} {f : Form} {now : Int}
    (h : reply app evs (.registrationResponse f now) = success) :
    ∃ n c name ch u o raw acd k key, Submits app f n c name ∧
      ch ∈ (run app evs).challenges ∧ ch.id = n ∧ now - ch.timestamp ≤ 60000 ∧
      u ∈ (run app evs).users ∧ u.username = name ∧
      AttestationOk app.env (attestationArgs c ch u) o raw ∧ o.authData.attested = some acd ∧
      acd.credentialPublicKey = some k ∧ coseKey app.env k = .ok key ∧
      (∀ r ∈ (run app evs).credentials, r.id ≠ c.rawId) ∧
      run app (evs ++ [.registrationResponse f now]) = { run app evs with
        credentials := (run app evs).credentials ++ [⟨c.rawId, none, key, u.id⟩] } := by
  have h : (registrationResponse app f now (run app evs)).1 = _ := h
  cases hr : readResponse app true f now (run app evs) with
  | error r =>
    simp only [registrationResponse, hr] at h
    subst h
    unfold readResponse at hr
    split at hr
    · split at hr <;> simp [success] at hr
    · split at hr
      · simp [success] at hr
      split at hr
      · simp [success] at hr
      split at hr
      · simp [success] at hr
      split at hr
      · simp [success] at hr
      · cases hr
  | ok x =>
    obtain ⟨c, ch, u⟩ := x
    obtain ⟨n, name, h1, -, h3, h4, h5⟩ := readResponse_ok_iff.mp hr
    rcases hh : handleAttestation app.env (registrar app.env) (attestationArgs c ch u) (run app evs)
      with ⟨r, db'⟩
    rw [registrationResponse_eq hr hh, conclude_success] at h
    obtain ⟨hc1, hc2⟩ := challenge_some h3
    obtain ⟨hu1, hu2⟩ := userNamed_some h4
    rcases handleAttestation_db app.env (attestationArgs c ch u) (run app evs) with ⟨-, h6⟩ |
      ⟨o, raw, acd, u', k, key, h6, h7, h8, h9, h10, h11, h12⟩
    · rw [hh] at h6
      exact absurd h h6
    · obtain ⟨hv1, hv2⟩ := userOfHandle_some h8
      obtain rfl : u' = u := (inv_run app evs).handle_unique hv1 hu1 hv2
      refine ⟨n, c, name, ch, u', o, raw, acd, k, key, h1, hc1, (Option.some.inj hc2).symm, h5, hu1,
        hu2, h6, h7, h9, h10, h11, ?_⟩
      rw [run_snoc]
      show (registrationResponse app f now (run app evs)).2 = _
      rw [registrationResponse_eq hr hh]
      rw [hh] at h12
      exact (Prod.mk.inj h12).2

/-- A successful authentication response, in terms of the specification. -/
theorem authentication_success {app : App} {evs : List Event} {f : Form} {now : Int}
    (h : reply app evs (.authenticationResponse f now) = success) :
    ∃ n c name ch u row key user rp ad, Submits app f n c name ∧
      ch ∈ (run app evs).challenges ∧ ch.id = n ∧ now - ch.timestamp ≤ 60000 ∧
      u ∈ (run app evs).users ∧ u.username = name ∧
      (run app evs).credential c.rawId = some row ∧ row.userId = u.id ∧
      parseCoseKeyBytes app.env row.key = .ok key ∧
      AssertionOk app.env (assertionArgs c ch u) ⟨key, row.count, u.entity, none⟩ user rp ad ∧
      run app (evs ++ [.authenticationResponse f now]) = { run app evs with
        credentials := (run app evs).credentials.map (setCount c.rawId ad.signCount) } := by
  have h : (authenticationResponse app f now (run app evs)).1 = _ := h
  cases hr : readResponse app false f now (run app evs) with
  | error r =>
    simp only [authenticationResponse, hr] at h
    subst h
    unfold readResponse at hr
    split at hr
    · split at hr <;> simp [success] at hr
    · split at hr
      · simp [success] at hr
      split at hr
      · simp [success] at hr
      split at hr
      · simp [success] at hr
      split at hr
      · simp [success] at hr
      · cases hr
  | ok x =>
    obtain ⟨c, ch, u⟩ := x
    obtain ⟨n, name, h1, -, h3, h4, h5⟩ := readResponse_ok_iff.mp hr
    rcases hh : handleAssertion app.env (registrar app.env) (assertionArgs c ch u) (run app evs)
      with ⟨r, db'⟩
    rw [authenticationResponse_eq hr hh, conclude_success] at h
    obtain ⟨hc1, hc2⟩ := challenge_some h3
    obtain ⟨hu1, hu2⟩ := userNamed_some h4
    rcases handleAssertion_db app.env (assertionArgs c ch u) (run app evs) with ⟨-, h6⟩ |
      ⟨cd, user, rp, ad, h6, h7, h8⟩
    · rw [hh] at h6
      exact absurd h h6
    · unfold credentialData at h6
      cases hc : (run app evs).credential c.rawId with
      | none =>
        rw [show (assertionArgs c ch u).credential.rawId = c.rawId from rfl, hc] at h6
        cases h6
      | some row =>
        rw [show (assertionArgs c ch u).credential.rawId = c.rawId from rfl, hc] at h6
        simp only [bind_ok_iff] at h6
        obtain ⟨key, hk, h6⟩ := h6
        split at h6
        · cases h6
        rename_i v hv
        simp only [pure_eq_ok, Except.ok.injEq, Option.some.injEq] at h6
        subst h6
        obtain ⟨hv1, hv2⟩ := userOfId_some hv
        have huv : v = u := by
          obtain ⟨_, _, _, _, -, hu, -⟩ := h7
          cases hu with
          | given _ _ he _ => exact (inv_run app evs).handle_unique hv1 hu1 he.symm
        subst huv
        refine ⟨n, c, name, ch, v, row, key, user, rp, ad, h1, hc1, (Option.some.inj hc2).symm, h5,
          hu1, hu2, hc, hv2.symm, hk, h7, ?_⟩
        rw [run_snoc]
        show (authenticationResponse app f now (run app evs)).2 = _
        rw [authenticationResponse_eq hr hh]
        rw [hh] at h8
        exact (Prod.mk.inj h8).2

/-! ## C49 -/

/-- The key in attested credential data comes from a CBOR map. -/
theorem attested_key_dict {env : Env} {ob raw : Bytes} {o : AttestationObject}
    {acd : AttestedCredentialData} {k : CPK} (h : AttObjOf env ob o raw)
    (ha : o.authData.attested = some acd) (hk : acd.credentialPublicKey = some k) :
    ∃ d, CoseKeyOf d k := by
  obtain ⟨_, _, _, -, -, ⟨flags, count, body, mid, -, -, -, -, -, hb, -⟩, -⟩ := h
  rw [ha] at hb
  obtain ⟨-, _, _, d, k', -, -, -, -, -, -, hk', hd, -⟩ := hb
  rw [hk] at hk'
  cases hk'
  exact ⟨d, hd⟩

/-- The signature rule does not read the members that `cose_key` drops. -/
theorem signedBy_asStored {env : Env} {k : CPK} {sig data : Bytes} :
    SignedBy env (asStored k) sig data ↔ SignedBy env k sig data := by
  cases k with
  | base b => exact Iff.rfl
  | ec2 b x y crv =>
    constructor <;> intro h <;> cases h with
    | ecdsa _ _ _ _ pk alg hash _ _ h1 h2 h3 h4 =>
      refine .ecdsa _ x y crv pk alg hash sig data ?_ h2 h3 h4
      cases h1 with
      | ec2 _ _ _ _ c nx ny e1 e2 e3 e4 => exact .ec2 _ x y crv c nx ny e1 e2 e3 e4
  | okp b crv x =>
    constructor <;> intro h <;> cases h with
    | eddsa _ _ _ pk _ _ h1 h2 =>
      refine .eddsa _ crv x pk sig data ?_ h2
      cases h1 with
      | ed25519 _ _ _ e1 e2 => exact .ed25519 _ crv x e1 e2
      | ed448 _ _ _ e1 e2 => exact .ed448 _ crv x e1 e2

/-- C49: a successful authentication of the user `name` was preceded by a
successful registration of the same credential id for the same user, and its
signature is by the key that was attested then. -/
theorem C49_login {app : App} (codec : CodecLaws app.env) {evs : List Event} {f : Form} {now : Int}
    (h : reply app evs (.authenticationResponse f now) = success) :
    ∃ n c name pre e k cdj raw sig handle, Submits app f n c name ∧ Occurs evs pre e ∧
      Registers app pre e c.rawId name k ∧ c.response = .assertion cdj raw sig handle ∧
      SignedBy app.env k sig (raw ++ app.env.sha256 cdj) := by
  obtain ⟨n, c, name, ch, u, row, key, user, rp, ad, h1, -, -, -, h2, h3, h4, h5, h6,
    ⟨cdj, raw, sig, handle, h7, -, -, -, -, h8, -⟩, -⟩ := authentication_success h
  obtain ⟨hr1, hr2⟩ := credential_some h4
  have inv := inv_run app evs
  obtain ⟨pre, e, v, k, h9, h10, h11, h12, h13⟩ := inv.credentials row hr1
  obtain rfl : v = u := inv.userId_unique h10 h2 (h11.trans h5)
  have hd : ∃ d, CoseKeyOf d k := by
    obtain ⟨_, _, _, _, _, _, _, _, _, -, -, -, -, -, e1, e2, e3⟩ := h12
    exact attested_key_dict e1 e2 e3
  have := C27_stored_key codec (hd.imp fun _ => parseCoseKeyDict_ok_iff.mpr) h13
  rw [h6] at this
  cases this
  exact ⟨n, c, name, pre, e, k, cdj, raw, sig, handle, h1, h9, h3 ▸ hr2 ▸ h12, h7,
    signedBy_asStored.mp h8⟩

/-! ## C50 -/

theorem submits_unique {app : App} {f : Form} {n n' : Nat} {c c' : Credential} {name name' : String}
    (h : Submits app f n c name) (h' : Submits app f n' c' name') : n = n' ∧ c = c' ∧ name = name' := by
  obtain ⟨cid, text, d, h1, h2, h3, h4, h5, h6⟩ := h
  obtain ⟨cid', text', d', e1, e2, e3, e4, e5, e6⟩ := h'
  rw [h1, Option.some.injEq] at e1
  subst e1
  rw [h2, Option.some.injEq] at e2
  subst e2
  rw [h3, Option.some.injEq] at e3
  subst e3
  rw [h4, Except.ok.injEq, PyVal.dict.injEq] at e4
  subst e4
  rw [h6, Option.some.injEq] at e6
  subst e6
  rw [← parseCredential_ok_iff] at h5 e5
  rw [h5, Except.ok.injEq] at e5
  exact ⟨rfl, e5, rfl⟩

/-- C50: a response that is answered with success names a challenge that an
earlier request was answered with, no more than 60000 ms before, and its client
data contain the bytes of that challenge. -/
theorem C50_fresh_challenge {app : App} {evs : List Event} {e : Event} {t : Int} {n : Nat}
    {c : Credential} {name : String} (h : Succeeds app evs e t n c name) :
    ∃ pre e' ch t' name' d text, Occurs evs pre e' ∧ Issues app pre e' n ch t' name' ∧
      t - t' ≤ 60000 ∧ ClientJson app.env c.response.clientDataJSON d ∧
      Lookup d (.str "challenge") (.str text) ∧ Base64UrlText text ch := by
  obtain ⟨hs, f, rfl | rfl, hf⟩ := h
  · obtain ⟨n', c', name', ch, u, o, raw, acd, k, key, h1, h2, h3, h4, -, -,
      ⟨cdj, ob, h5, ⟨cd, ⟨d, h6, -, h7, -⟩, -, h8, -⟩, -⟩, -⟩ := registration_success hs
    obtain ⟨rfl, rfl, rfl⟩ := submits_unique hf h1
    obtain ⟨pre, e', u', h9, -, -, h10⟩ := (inv_run app evs).challenges ch h2
    refine ⟨pre, e', ch.request, ch.timestamp, u'.username, d, _, h9, h3 ▸ h10, h4, ?_, h7, h8⟩
    have h5 : c.response = _ := h5
    rw [h5]
    exact h6
  · obtain ⟨n', c', name', ch, u, row, key, user, rp, ad, h1, h2, h3, h4, -, -, -, -, -,
      ⟨cdj, raw, sig, hd, h5, -, -, ⟨cd, ⟨d, h6, -, h7, -⟩, -, h8, -⟩, -⟩, -⟩ :=
      authentication_success hs
    obtain ⟨rfl, rfl, rfl⟩ := submits_unique hf h1
    obtain ⟨pre, e', u', h9, -, -, h10⟩ := (inv_run app evs).challenges ch h2
    refine ⟨pre, e', ch.request, ch.timestamp, u'.username, d, _, h9, h3 ▸ h10, h4, ?_, h7, h8⟩
    have h5 : c.response = _ := h5
    rw [h5]
    exact h6

/-! ## C47 for the application -/

/-- The counter in the table. -/
def counter (db : Db) (id : Bytes) : WithBot Int :=
  match db.credential id with
  | none => ⊥
  | some c => counterOf c.count

theorem find_map_setCount (l : List CredentialRow) (id i : Bytes) (n : Int) :
    (l.map (setCount id n)).find? (fun c => c.id == i) =
      (l.find? fun c => c.id == i).map (setCount id n) := by
  induction l with
  | nil => rfl
  | cons c l ih =>
    rw [List.map_cons, List.find?_cons, List.find?_cons, (setCount_keeps id n c).1]
    split
    · rfl
    · exact ih

theorem counter_setCount (db : Db) (id i : Bytes) (n : Int) :
    counter { db with credentials := db.credentials.map (setCount id n) } i =
      if i = id ∧ db.credential i ≠ none then (n : WithBot Int) else counter db i := by
  unfold counter Db.credential
  rw [find_map_setCount]
  cases h : db.credentials.find? fun c => c.id == i with
  | none => simp
  | some c =>
    have hc : c.id = i := by simpa using List.find?_some h
    by_cases hi : i = id
    · simp [hi, setCount, hc, counterOf]
    · have : ¬ c.id = id := by rw [hc]; exact hi
      simp [hi, setCount, this]

/-- C47: the registrar of the application stores the counters, so the theorems
about such registrars apply to it. -/
theorem C47_flask_registrar (env : Env) : StoresCounters (registrar env) counter where
  read := fun id db i => le_refl _
  read_ok := by
    intro id db db' cd h
    obtain ⟨h', rfl⟩ := Prod.mk.inj (h : (credentialData env id db, db) = _)
    clear h
    rename' h' => h
    unfold counter
    unfold credentialData at h
    cases hc : db.credential id with
    | none =>
      rw [hc] at h
      cases h
    | some c =>
      rw [hc] at h
      simp only [bind_ok_iff] at h
      obtain ⟨key, -, h⟩ := h
      split at h
      · cases h
      · cases h
        rfl
  attestation := by
    intro r db i
    show _ ≤ counter (registerAttestation env r db).2 i
    rcases registerAttestation_cases env r db with ⟨x, -, h⟩ | ⟨_, u, _, key, -, -, -, -, hf, h⟩
    · rw [h]
    · rw [h]
      unfold counter Db.credential
      simp only [List.find?_append]
      cases db.credentials.find? fun c => c.id == i with
      | none => exact bot_le
      | some c => exact le_refl _
  assertion := by
    intro r db hlt i
    show _ ≤ counter (registerAssertion r db).2 i
    rcases registerAssertion_cases r db with ⟨h, -⟩ | ⟨-, h⟩
    · rw [h]
    · rw [h, counter_setCount]
      split
      · rename_i hi
        rw [hi.1]
        exact le_of_lt hlt
      · exact le_refl _
  assertion_ok := by
    intro r db db' h
    have h : registerAssertion r db = _ := h
    rcases registerAssertion_cases r db with ⟨h', -⟩ | ⟨⟨c, hc⟩, h'⟩
    · rw [h'] at h
      cases (Prod.mk.inj h).1
    · rw [h'] at h
      obtain ⟨-, rfl⟩ := Prod.mk.inj h
      rw [counter_setCount, if_pos ⟨rfl, by rw [hc]; simp⟩]

/-- No request lowers a counter. -/
theorem counter_step (app : App) (e : Event) (db : Db) (i : Bytes) :
    counter db i ≤ counter (step app e db).2 i := by
  have same : ∀ db' : Db, db'.credentials = db.credentials → counter db i ≤ counter db' i := by
    intro db' h
    unfold counter Db.credential
    rw [h]
  cases e with
  | registrationRequest name hd ch t =>
    show _ ≤ counter (registrationRequest name hd ch t db).2 i
    cases name with
    | none => exact le_refl _
    | some name =>
      have key : ∀ (u : User) (db' : Db), db'.credentials = db.credentials →
          findOrAddUser db name hd = (.ok u, db') →
          counter db i ≤ counter (registrationRequest (some name) hd ch t db).2 i := by
        intro u db' hdb hf
        rcases addChallenge_cases db' ch t u.id with ha | ⟨-, ha⟩ <;>
          (simp only [registrationRequest, hf, ha]; exact same _ hdb)
      rcases findOrAddUser_cases db name hd with ⟨u, -, -, hf⟩ | hf | ⟨-, hf⟩
      · exact key u _ rfl hf
      · simp only [registrationRequest, hf]
        exact le_refl _
      · refine key _ _ ?_ hf
        rfl
  | authenticationRequest name ch t =>
    show _ ≤ counter (authenticationRequest name ch t db).2 i
    cases name with
    | none => exact le_refl _
    | some name =>
      cases hu : db.userNamed name with
      | none =>
        simp only [authenticationRequest, hu]
        exact le_refl _
      | some u =>
        rcases addChallenge_cases db ch t u.id with ha | ⟨-, ha⟩ <;>
          (simp only [authenticationRequest, hu, ha]; exact same _ rfl)
  | registrationResponse f t =>
    show _ ≤ counter (registrationResponse app f t db).2 i
    cases hr : readResponse app true f t db with
    | error r =>
      simp only [registrationResponse, hr]
      exact le_refl _
    | ok x =>
      obtain ⟨c, ch, u⟩ := x
      rw [registrationResponse_eq hr rfl]
      exact handle_mono (env := app.env) (r := .registration _) (C47_flask_registrar app.env)
        trivial db i
  | authenticationResponse f t =>
    show _ ≤ counter (authenticationResponse app f t db).2 i
    cases hr : readResponse app false f t db with
    | error r =>
      simp only [authenticationResponse, hr]
      exact le_refl _
    | ok x =>
      obtain ⟨c, ch, u⟩ := x
      rw [authenticationResponse_eq hr rfl]
      exact handle_mono (env := app.env) (r := .authentication (assertionArgs c ch u))
        (C47_flask_registrar app.env) rfl db i

theorem counter_run (app : App) (evs evs' : List Event) (i : Bytes) :
    counter (run app evs) i ≤ counter (run app (evs ++ evs')) i := by
  induction evs' using List.reverseRecOn with
  | nil => simp
  | append_singleton l e ih =>
    rw [← List.append_assoc, run_snoc]
    exact le_trans ih (counter_step app e _ i)

/-- What a request may do to the table of credentials. -/
theorem step_credentials (app : App) (e : Event) (db : Db) :
    (step app e db).2.credentials = db.credentials ∨
    (∃ r, (step app e db).2.credentials = db.credentials ++ [r]) ∨
    ∃ id n, (step app e db).2.credentials = db.credentials.map (setCount id n) := by
  cases e with
  | registrationRequest name hd ch t =>
    left
    show (registrationRequest name hd ch t db).2.credentials = _
    cases name with
    | none => rfl
    | some name =>
      have key : ∀ (u : User) (db' : Db), db'.credentials = db.credentials →
          findOrAddUser db name hd = (.ok u, db') →
          (registrationRequest (some name) hd ch t db).2.credentials = db.credentials := by
        intro u db' hdb hf
        rcases addChallenge_cases db' ch t u.id with ha | ⟨-, ha⟩ <;>
          (simp only [registrationRequest, hf, ha]; exact hdb)
      rcases findOrAddUser_cases db name hd with ⟨u, -, -, hf⟩ | hf | ⟨-, hf⟩
      · exact key u _ rfl hf
      · simp only [registrationRequest, hf]
      · refine key _ _ ?_ hf
        rfl
  | authenticationRequest name ch t =>
    left
    show (authenticationRequest name ch t db).2.credentials = _
    cases name with
    | none => rfl
    | some name =>
      cases hu : db.userNamed name with
      | none => simp only [authenticationRequest, hu]
      | some u =>
        rcases addChallenge_cases db ch t u.id with ha | ⟨-, ha⟩ <;>
          simp only [authenticationRequest, hu, ha]
  | registrationResponse f t =>
    cases hr : readResponse app true f t db with
    | error r =>
      left
      show (registrationResponse app f t db).2.credentials = _
      simp only [registrationResponse, hr]
    | ok x =>
      obtain ⟨c, ch, u⟩ := x
      rcases hh : handleAttestation app.env (registrar app.env) (attestationArgs c ch u) db
        with ⟨r, db'⟩
      have e1 : (step app (.registrationResponse f t) db).2 = db' := by
        show (registrationResponse app f t db).2 = db'
        rw [registrationResponse_eq hr hh]
      rw [e1]
      rcases handleAttestation_db app.env (attestationArgs c ch u) db with ⟨h, -⟩ |
        ⟨_, _, _, _, _, _, -, -, -, -, -, -, h⟩
      · rw [hh] at h
        exact Or.inl (congrArg Db.credentials h)
      · rw [hh] at h
        obtain ⟨-, rfl⟩ := Prod.mk.inj h
        exact Or.inr (Or.inl ⟨_, rfl⟩)
  | authenticationResponse f t =>
    cases hr : readResponse app false f t db with
    | error r =>
      left
      show (authenticationResponse app f t db).2.credentials = _
      simp only [authenticationResponse, hr]
    | ok x =>
      obtain ⟨c, ch, u⟩ := x
      rcases hh : handleAssertion app.env (registrar app.env) (assertionArgs c ch u) db
        with ⟨r, db'⟩
      have e1 : (step app (.authenticationResponse f t) db).2 = db' := by
        show (authenticationResponse app f t db).2 = db'
        rw [authenticationResponse_eq hr hh]
      rw [e1]
      rcases handleAssertion_db app.env (assertionArgs c ch u) db with ⟨h, -⟩ |
        ⟨_, _, _, _, -, -, h⟩
      · rw [hh] at h
        exact Or.inl (congrArg Db.credentials h)
      · rw [hh] at h
        obtain ⟨-, rfl⟩ := Prod.mk.inj h
        exact Or.inr (Or.inr ⟨_, _, rfl⟩)

/-- The credential rows stay. -/
theorem credential_run (app : App) (evs evs' : List Event) {id : Bytes}
    (h : ∃ c ∈ (run app evs).credentials, c.id = id) :
    ∃ c ∈ (run app (evs ++ evs')).credentials, c.id = id := by
  induction evs' using List.reverseRecOn with
  | nil => simpa using h
  | append_singleton l e ih =>
    rw [← List.append_assoc, run_snoc]
    obtain ⟨c, hc, hid⟩ := ih
    rcases step_credentials app e (run app (evs ++ l)) with h1 | ⟨r, h1⟩ | ⟨i, n, h1⟩
    · exact ⟨c, by rw [h1]; exact hc, hid⟩
    · exact ⟨c, by rw [h1]; exact List.mem_append_left _ hc, hid⟩
    · exact ⟨setCount i n c, by rw [h1]; exact List.mem_map_of_mem hc,
        by rw [(setCount_keeps i n c).1]; exact hid⟩

/-- C47 for the application: of two successful authentications with one
credential id the later one has the greater counter. -/
theorem C47_flask_counters {app : App} {pre mid : List Event} {f f' : Form} {t t' : Int}
    {n n' : Nat} {c c' : Credential} {name name' : String}
    (h : reply app pre (.authenticationResponse f t) = success) (hc : Submits app f n c name)
    (h' : reply app (pre ++ .authenticationResponse f t :: mid) (.authenticationResponse f' t') = success)
    (hc' : Submits app f' n' c' name') (hid : c.rawId = c'.rawId) :
    ∃ m m', HasCounter c m ∧ HasCounter c' m' ∧ m < m' := by
  obtain ⟨_, _, _, ch, u, row, key, user, rp, ad, h1, -, -, -, -, -, h2, -, -, h3, h4⟩ :=
    authentication_success h
  obtain ⟨rfl, rfl, rfl⟩ := submits_unique hc h1
  obtain ⟨_, _, _, ch', u', row', key', user', rp', ad', h1', -, -, -, -, -, h2', -, -, h3', -⟩ :=
    authentication_success h'
  obtain ⟨rfl, rfl, rfl⟩ := submits_unique hc' h1'
  refine ⟨_, _, assertionOk_counter h3, assertionOk_counter h3', ?_⟩
  have hlt := counterOk_lt h3' rfl
  have e1 : counter (run app (pre ++ [.authenticationResponse f t])) c.rawId =
      ((ad.signCount : Int) : WithBot Int) := by
    rw [h4, counter_setCount, if_pos ⟨rfl, by rw [h2]; simp⟩]
  have e2 := counter_run app (pre ++ [.authenticationResponse f t]) mid c.rawId
  rw [e1, List.append_assoc, List.singleton_append] at e2
  have e3 : counter (run app (pre ++ .authenticationResponse f t :: mid)) c.rawId =
      counterOf row'.count := by
    unfold counter
    rw [hid, h2']
  rw [e3] at e2
  have := lt_of_le_of_lt e2 hlt
  have := WithBot.coe_lt_coe.mp this
  omega

/-! ## C51 -/

/-- C51, what does hold: no response (credential id and response data) leads to
success twice, whatever challenge it names.  Missing: a challenge may be used for
different responses and by a different user (`C51_single_use_refuted`,
`C51_user_bound_refuted`). -/
theorem C51_no_replay_partial {app : App} {pre mid : List Event} {e e' : Event} {t t' : Int}
    {n n' : Nat} {c c' : Credential} {name name' : String} (h : Succeeds app pre e t n c name)
    (h' : Succeeds app (pre ++ e :: mid) e' t' n' c' name') :
    ¬ (c.rawId = c'.rawId ∧ c.response = c'.response) := by
  rintro ⟨hid, hr⟩
  obtain ⟨hs, f, he, hf⟩ := h
  obtain ⟨hs', f', he', hf'⟩ := h'
  rcases he with rfl | rfl <;> rcases he' with rfl | rfl
  · obtain ⟨_, _, _, ch, u, o, raw, acd, k, key, h1, -, -, -, -, -, -, -, -, -, -, h2⟩ :=
      registration_success hs
    obtain ⟨rfl, rfl, rfl⟩ := submits_unique hf h1
    obtain ⟨_, _, _, ch', u', o', raw', acd', k', key', h1', -, -, -, -, -, -, -, -, -, h2', -⟩ :=
      registration_success hs'
    obtain ⟨rfl, rfl, rfl⟩ := submits_unique hf' h1'
    obtain ⟨row, hrow, hrow'⟩ := credential_run app (pre ++ [.registrationResponse f t]) mid
      (id := c.rawId) (by rw [h2]; exact ⟨_, List.mem_append_right _ (List.mem_singleton.mpr rfl), rfl⟩)
    rw [List.append_assoc, List.singleton_append] at hrow
    exact h2' row hrow (hrow'.trans hid)
  · obtain ⟨_, _, _, ch, u, o, raw, acd, k, key, h1, -, -, -, -, -, ⟨cdj, ob, h2, -⟩, -⟩ :=
      registration_success hs
    obtain ⟨rfl, rfl, rfl⟩ := submits_unique hf h1
    obtain ⟨_, _, _, ch', u', row', key', user', rp', ad', h1', -, -, -, -, -, -, -, -,
      ⟨_, _, _, _, h3, -⟩, -⟩ := authentication_success hs'
    obtain ⟨rfl, rfl, rfl⟩ := submits_unique hf' h1'
    have h2 : c.response = _ := h2
    have h3 : c'.response = _ := h3
    rw [← hr, h2] at h3
    cases h3
  · obtain ⟨_, _, _, ch, u, o, raw, acd, k, key, h1, -, -, -, -, -, ⟨cdj, ob, h2, -⟩, -⟩ :=
      registration_success hs'
    obtain ⟨rfl, rfl, rfl⟩ := submits_unique hf' h1
    obtain ⟨_, _, _, ch', u', row', key', user', rp', ad', h1', -, -, -, -, -, -, -, -,
      ⟨_, _, _, _, h3, -⟩, -⟩ := authentication_success hs
    obtain ⟨rfl, rfl, rfl⟩ := submits_unique hf h1'
    have h2 : c'.response = _ := h2
    have h3 : c.response = _ := h3
    rw [hr, h2] at h3
    cases h3
  · obtain ⟨m, m', hm, hm', hlt⟩ := C47_flask_counters hs hf hs' hf' hid
    obtain ⟨c1, r1, g1, u1, h1, h2⟩ := hm
    have := hasCounter_unique (c := c') ⟨c1, r1, g1, u1, hr ▸ h1, h2⟩ hm'
    omega

end

end WebAuthn.Flask
