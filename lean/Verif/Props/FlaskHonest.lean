import Verif.Props.Flask
import Verif.Props.Honest

/-!
# Honest users of the example application (C56)
-/

namespace WebAuthn.Flask

open WebAuthn WebAuthn.Spec WebAuthn.Props

/-! ## Rows stay in the tables -/

theorem step_prefix (app : App) (e : Event) (db : Db) :
    (∃ us, (step app e db).2.users = db.users ++ us) ∧
      ∃ cs, (step app e db).2.challenges = db.challenges ++ cs ∧ cs.length ≤ 1 := by
  cases e with
  | registrationRequest name hd ch t =>
    show (∃ us, (registrationRequest name hd ch t db).2.users = db.users ++ us) ∧
      ∃ cs, (registrationRequest name hd ch t db).2.challenges = db.challenges ++ cs ∧ cs.length ≤ 1
    cases name with
    | none => exact ⟨⟨[], by simp [registrationRequest]⟩, ⟨[], by simp [registrationRequest]⟩⟩
    | some name =>
      rcases findOrAddUser_cases db name hd with ⟨u, -, -, hf⟩ | hf | ⟨-, hf⟩
      · rcases addChallenge_cases db ch t u.id with ha | ⟨-, ha⟩ <;>
          simp only [registrationRequest, hf, ha]
        · exact ⟨⟨[], by simp⟩, ⟨[], by simp⟩⟩
        · exact ⟨⟨[], by simp⟩, ⟨_, rfl, by simp⟩⟩
      · simp only [registrationRequest, hf]
        exact ⟨⟨[], by simp⟩, ⟨[], by simp⟩⟩
      · rcases addChallenge_cases
          { db with users := db.users ++ [⟨db.users.length + 1, name, hd⟩] } ch t
          (db.users.length + 1) with ha | ⟨-, ha⟩ <;>
          simp only [registrationRequest, hf, ha]
        · exact ⟨⟨_, rfl⟩, ⟨[], by simp⟩⟩
        · exact ⟨⟨_, rfl⟩, ⟨_, rfl, by simp⟩⟩
  | authenticationRequest name ch t =>
    show (∃ us, (authenticationRequest name ch t db).2.users = db.users ++ us) ∧
      ∃ cs, (authenticationRequest name ch t db).2.challenges = db.challenges ++ cs ∧ cs.length ≤ 1
    cases name with
    | none => exact ⟨⟨[], by simp [authenticationRequest]⟩, ⟨[], by simp [authenticationRequest]⟩⟩
    | some name =>
      cases hu : db.userNamed name with
      | none =>
        simp only [authenticationRequest, hu]
        exact ⟨⟨[], by simp⟩, ⟨[], by simp⟩⟩
      | some u =>
        rcases addChallenge_cases db ch t u.id with ha | ⟨-, ha⟩ <;>
          simp only [authenticationRequest, hu, ha]
        · exact ⟨⟨[], by simp⟩, ⟨[], by simp⟩⟩
        · exact ⟨⟨[], by simp⟩, ⟨_, rfl, by simp⟩⟩
  | registrationResponse f t =>
    show (∃ us, (registrationResponse app f t db).2.users = db.users ++ us) ∧
      ∃ cs, (registrationResponse app f t db).2.challenges = db.challenges ++ cs ∧ cs.length ≤ 1
    cases hr : readResponse app true f t db with
    | error r =>
      simp only [registrationResponse, hr]
      exact ⟨⟨[], by simp⟩, ⟨[], by simp⟩⟩
    | ok x =>
      obtain ⟨c, ch, u⟩ := x
      rcases hh : handleAttestation app.env (registrar app.env) (attestationArgs c ch u) db
        with ⟨r, db'⟩
      rw [registrationResponse_eq hr hh]
      rcases handleAttestation_db app.env (attestationArgs c ch u) db with ⟨h, -⟩ |
        ⟨_, _, _, _, _, _, -, -, -, -, -, -, h⟩
      · rw [hh] at h
        obtain rfl : db' = db := h
        exact ⟨⟨[], by simp⟩, ⟨[], by simp⟩⟩
      · rw [hh] at h
        obtain ⟨-, rfl⟩ := Prod.mk.inj h
        exact ⟨⟨[], by simp⟩, ⟨[], by simp⟩⟩
  | authenticationResponse f t =>
    show (∃ us, (authenticationResponse app f t db).2.users = db.users ++ us) ∧
      ∃ cs, (authenticationResponse app f t db).2.challenges = db.challenges ++ cs ∧ cs.length ≤ 1
    cases hr : readResponse app false f t db with
    | error r =>
      simp only [authenticationResponse, hr]
      exact ⟨⟨[], by simp⟩, ⟨[], by simp⟩⟩
    | ok x =>
      obtain ⟨c, ch, u⟩ := x
      rcases hh : handleAssertion app.env (registrar app.env) (assertionArgs c ch u) db
        with ⟨r, db'⟩
      rw [authenticationResponse_eq hr hh]
      rcases handleAssertion_db app.env (assertionArgs c ch u) db with ⟨h, -⟩ |
        ⟨_, _, _, _, -, -, h⟩
      · rw [hh] at h
        obtain rfl : db' = db := h
        exact ⟨⟨[], by simp⟩, ⟨[], by simp⟩⟩
      · rw [hh] at h
        obtain ⟨-, rfl⟩ := Prod.mk.inj h
        exact ⟨⟨[], by simp⟩, ⟨[], by simp⟩⟩

theorem run_prefix (app : App) (evs evs' : List Event) :
    (∃ us, (run app (evs ++ evs')).users = (run app evs).users ++ us) ∧
      ∃ cs, (run app (evs ++ evs')).challenges = (run app evs).challenges ++ cs ∧
        cs.length ≤ evs'.length := by
  induction evs' using List.reverseRecOn with
  | nil => exact ⟨⟨[], by simp⟩, ⟨[], by simp⟩⟩
  | append_singleton l e ih =>
    obtain ⟨⟨us, h1⟩, ⟨cs, h2, hl⟩⟩ := ih
    obtain ⟨⟨us', h3⟩, ⟨cs', h4, hl'⟩⟩ := step_prefix app e (run app (evs ++ l))
    rw [← List.append_assoc, run_snoc]
    exact ⟨⟨us ++ us', by rw [h3, h1, List.append_assoc]⟩,
      ⟨cs ++ cs', by rw [h4, h2, List.append_assoc], by simp; omega⟩⟩

theorem challenges_length (app : App) (evs : List Event) :
    (run app evs).challenges.length ≤ evs.length := by
  obtain ⟨-, cs, h, hl⟩ := run_prefix app [] evs
  rw [List.nil_append] at h
  rw [h]
  exact hl

/-- `find?` finds the only match. -/
theorem find_unique {α : Type} {p : α → Bool} {l : List α} {a : α} (ha : a ∈ l) (hp : p a = true)
    (hu : ∀ b ∈ l, p b = true → b = a) : l.find? p = some a := by
  cases h : l.find? p with
  | none =>
    rw [List.find?_eq_none] at h
    exact absurd hp (h a ha)
  | some b => rw [hu b (List.mem_of_find?_eq_some h) (List.find?_some h)]

theorem pairwise_unique {α β : Type} {f : α → β} {l : List α}
    (h : l.Pairwise fun a b => f a ≠ f b) {a b : α} (ha : a ∈ l) (hb : b ∈ l) (he : f a = f b) :
    a = b := by
  induction l with
  | nil => cases ha
  | cons x l ih =>
    rw [List.pairwise_cons] at h
    rcases List.mem_cons.mp ha with ha' | ha' <;> rcases List.mem_cons.mp hb with hb' | hb'
    · exact ha'.trans hb'.symm
    · exact absurd (ha' ▸ he) (h.1 b hb')
    · exact absurd (hb' ▸ he.symm) (h.1 a ha')
    · exact ih h.2 ha' hb'

section
variable {app : App} {evs : List Event} {db : Db}

theorem Inv.find_name (h : Inv app evs db) {u : User} (hu : u ∈ db.users) :
    db.userNamed u.username = some u :=
  find_unique hu (by simp) fun v hv hn => pairwise_unique h.names hv hu (by simpa using hn)

theorem Inv.find_handle (h : Inv app evs db) {u : User} (hu : u ∈ db.users) :
    db.userOfHandle u.handle = some u :=
  find_unique hu (by simp) fun v hv hn => pairwise_unique h.handles hv hu (by simpa using hn)

theorem Inv.find_id (h : Inv app evs db) {u : User} (hu : u ∈ db.users) :
    db.userOfId u.id = some u :=
  find_unique hu (by simp) fun v hv hn => h.userId_unique hv hu (by simpa using hn)

theorem Inv.find_challenge (h : Inv app evs db) {c : Challenge} (hc : c ∈ db.challenges) :
    db.challenge (some c.id) = some c := by
  refine find_unique hc (by simp) fun v hv hn => ?_
  obtain ⟨i, hi⟩ := List.mem_iff_getElem?.mp hc
  obtain ⟨j, hj⟩ := List.mem_iff_getElem?.mp hv
  have h1 := h.challengeIds i c hi
  have h2 := h.challengeIds j v hj
  simp only [beq_iff_eq] at hn
  have : i = j := by omega
  subst this
  rw [hi] at hj
  exact (Option.some.inj hj).symm

theorem Inv.find_credential (h : Inv app evs db) {c : CredentialRow} (hc : c ∈ db.credentials) :
    db.credential c.id = some c :=
  find_unique hc (by simp) fun v hv hn => pairwise_unique h.credentialIds hv hc (by simpa using hn)

end

/-- An issued challenge is in the tables, with its user. -/
theorem issued_row {app : App} {evs pre : List Event} {e : Event} {n : Nat} {ch : Bytes} {t : Int}
    {name : String} (ho : Occurs evs pre e) (hi : Issues app pre e n ch t name) :
    ∃ u, u ∈ (run app evs).users ∧ u.username = name ∧
      (⟨n, ch, t, u.id⟩ : Challenge) ∈ (run app evs).challenges := by
  obtain ⟨post, rfl⟩ := ho
  have hp := run_prefix app (pre ++ [e]) post
  rw [List.append_assoc, List.singleton_append] at hp
  obtain ⟨⟨us, h1⟩, ⟨cs, h2, -⟩⟩ := hp
  suffices h : ∃ u, u ∈ (run app (pre ++ [e])).users ∧ u.username = name ∧
      (⟨n, ch, t, u.id⟩ : Challenge) ∈ (run app (pre ++ [e])).challenges by
    obtain ⟨u, h3, h4, h5⟩ := h
    exact ⟨u, by rw [h1]; exact List.mem_append_left _ h3, h4,
      by rw [h2]; exact List.mem_append_left _ h5⟩
  rw [run_snoc]
  have intEq : ∀ {a b : Nat} {k k' : String} {v v' : PyVal},
      Reply.json (.dict [(.str "challengeID", .int a), (.str k, v)]) =
        .json (.dict [(.str "challengeID", .int b), (.str k', v')]) → a = b := by
    intro a b k k' v v' h
    simp only [Reply.json.injEq, PyVal.dict.injEq, List.cons.injEq, Prod.mk.injEq,
      PyVal.int.injEq] at h
    omega
  obtain ⟨⟨key, v, hr⟩, ⟨hd, rfl⟩ | rfl⟩ := hi
  · have hr : (registrationRequest (some name) hd ch t (run app pre)).1 = _ := hr
    show ∃ u, u ∈ (registrationRequest (some name) hd ch t (run app pre)).2.users ∧ _ ∧
      _ ∈ (registrationRequest (some name) hd ch t (run app pre)).2.challenges
    have main : ∀ (u : User) (db : Db), u ∈ db.users → u.username = name →
        findOrAddUser (run app pre) name hd = (.ok u, db) →
        ∃ u, u ∈ (registrationRequest (some name) hd ch t (run app pre)).2.users ∧
          u.username = name ∧ (⟨n, ch, t, u.id⟩ : Challenge) ∈
            (registrationRequest (some name) hd ch t (run app pre)).2.challenges := by
      intro u db hu hn hf
      rcases addChallenge_cases db ch t u.id with ha | ⟨-, ha⟩
      · simp only [registrationRequest, hf, ha] at hr
        cases hr
      · obtain ⟨w, hw, -⟩ := creation_reply (db.challenges.length + 1)
          { name := name, id := u.handle, displayName := name } ch
        simp only [registrationRequest, hf, ha] at hr ⊢
        rw [hw] at hr
        have := intEq hr
        subst this
        exact ⟨u, hu, hn, List.mem_append_right _ (List.mem_singleton.mpr rfl)⟩
    rcases findOrAddUser_cases (run app pre) name hd with ⟨u, hu, hn, hf⟩ | hf | ⟨-, hf⟩
    · exact main u _ hu hn hf
    · simp only [registrationRequest, hf] at hr
      cases hr
    · exact main _ _ (List.mem_append_right _ (List.mem_singleton.mpr rfl)) rfl hf
  · have hr : (authenticationRequest (some name) ch t (run app pre)).1 = _ := hr
    show ∃ u, u ∈ (authenticationRequest (some name) ch t (run app pre)).2.users ∧ _ ∧
      _ ∈ (authenticationRequest (some name) ch t (run app pre)).2.challenges
    cases hu : (run app pre).userNamed name with
    | none =>
      simp only [authenticationRequest, hu] at hr
      cases hr
    | some u =>
      obtain ⟨hu1, hu2⟩ := userNamed_some hu
      rcases addChallenge_cases (run app pre) ch t u.id with ha | ⟨-, ha⟩
      · simp only [authenticationRequest, hu, ha] at hr
        cases hr
      · obtain ⟨w, hw, -⟩ := request_reply ((run app pre).challenges.length + 1)
          ((run app pre).credentials.filter fun c => c.userId == u.id) ch
        simp only [authenticationRequest, hu, ha] at hr ⊢
        rw [hw] at hr
        have := intEq hr
        subst this
        exact ⟨u, hu1, hu2, List.mem_append_right _ (List.mem_singleton.mpr rfl)⟩

/-- Rows keep their key and user. -/
theorem row_run (app : App) (evs evs' : List Event) {id key : Bytes} {uid : Nat}
    (h : ∃ c ∈ (run app evs).credentials, c.id = id ∧ c.key = key ∧ c.userId = uid) :
    ∃ c ∈ (run app (evs ++ evs')).credentials, c.id = id ∧ c.key = key ∧ c.userId = uid := by
  induction evs' using List.reverseRecOn with
  | nil => simpa using h
  | append_singleton l e ih =>
    rw [← List.append_assoc, run_snoc]
    obtain ⟨c, hc, hid⟩ := ih
    rcases step_credentials app e (run app (evs ++ l)) with h1 | ⟨r, h1⟩ | ⟨i, n, h1⟩
    · exact ⟨c, by rw [h1]; exact hc, hid⟩
    · exact ⟨c, by rw [h1]; exact List.mem_append_left _ hc, hid⟩
    · obtain ⟨e1, e2, e3⟩ := setCount_keeps i n c
      exact ⟨setCount i n c, by rw [h1]; exact List.mem_map_of_mem hc, by rw [e1, e2, e3]; exact hid⟩

/-- A registered credential is in the tables, with its user. -/
theorem registered_row {app : App} {evs pre : List Event} {e : Event} {id : Bytes} {name : String}
    {k : CPK} (ho : Occurs evs pre e) (hr : Registers app pre e id name k) :
    ∃ u row, u ∈ (run app evs).users ∧ u.username = name ∧ row ∈ (run app evs).credentials ∧
      row.id = id ∧ row.userId = u.id ∧ coseKey app.env k = .ok row.key := by
  obtain ⟨post, rfl⟩ := ho
  obtain ⟨f, t, n, c, cdj, ob, o, raw, acd, rfl, h1, h2, h3, h4, h5, h6, h7⟩ := hr
  obtain ⟨_, _, _, ch, u, o', raw', acd', k', key, e1, -, -, -, e2, e3, ⟨cdj', ob', e4, -, e5, -⟩, e6,
    e7, e8, -, e9⟩ := registration_success h1
  obtain ⟨rfl, rfl, rfl⟩ := submits_unique h2 e1
  have e4 : c.response = _ := e4
  rw [h4] at e4
  cases e4
  have hk : k' = k := by
    have := parseAttestationObject_ok_iff.mpr h5
    rw [parseAttestationObject_ok_iff.mpr e5] at this
    cases this
    rw [h6] at e6
    cases e6
    rw [h7] at e7
    exact (Option.some.inj e7).symm
  subst hk
  obtain ⟨us, hus⟩ := (run_prefix app pre (.registrationResponse f t :: post)).1
  obtain ⟨row, r1, r2, r3, r4⟩ := row_run app (pre ++ [.registrationResponse f t]) post
    (id := id) (key := key) (uid := u.id) (by
      rw [e9]
      exact ⟨_, List.mem_append_right _ (List.mem_singleton.mpr rfl), h3, rfl, rfl⟩)
  rw [List.append_assoc, List.singleton_append] at r1
  exact ⟨u, row, by rw [hus]; exact List.mem_append_left _ e2, e3, r1, r2, r4, by rw [r3]; exact e8⟩

theorem serialises_app : Serialises "http://localhost:5000" "http" "localhost:5000".toList 5000 :=
  ⟨by decide, "localhost".toList, 80, .http, by decide, by unfold HostChar; decide,
    Or.inr ⟨"5000".toList, by decide, by decide, by rw [decimal_iff]; decide, by decide⟩⟩

theorem expected_app (env : Env) : ExpectedOk env (.one origin) := by
  refine ⟨by simp [originList], fun s hs => ?_⟩
  simp only [originList, List.mem_singleton] at hs
  subst hs
  exact ⟨_, originOf_serialises serialises_app⟩

/-! ## C49: what is accepted was made for this application -/

theorem allowed_app {env : Env} {text : String} (h : OriginAllowed env (.one origin) text) :
    OriginOf env text ⟨"http", "localhost:5000", 5000⟩ := by
  obtain ⟨o, h1, s, hs, h2⟩ := h
  simp only [originList, List.mem_singleton] at hs
  subst hs
  have e := originOf_unique h2 (originOf_serialises serialises_app)
  rw [String.ofList_toList] at e
  rwa [← e]

/-- C49: a registration that succeeds was made by a client on the page of the
application, for its RP id, with a user present. -/
theorem C49_registration_scope {app : App} {evs : List Event} {f : Form} {now : Int}
    (h : reply app evs (.registrationResponse f now) = success) :
    ∃ n c name cdj ob o raw d text, Submits app f n c name ∧ c.response = .attestation cdj ob ∧
      ClientJson app.env cdj d ∧ Lookup d (.str "type") (.str "webauthn.create") ∧
      Lookup d (.str "origin") (.str text) ∧
      OriginOf app.env text ⟨"http", "localhost:5000", 5000⟩ ∧
      AttObjOf app.env ob o raw ∧ RpHashOk app.env raw "localhost" ∧ FlagSet raw 0 := by
  obtain ⟨n, c, name, ch, u, o, raw, acd, k, key, h1, -, -, -, -, -,
    ⟨cdj, ob, h2, ⟨cd, ⟨d, h3, h4, -, h5, -⟩, h6, -, h7, -⟩, h8, ⟨-, h9, h10, -⟩, -⟩, -⟩ :=
    registration_success h
  exact ⟨n, c, name, cdj, ob, o, raw, d, _, h1, h2, h3, h6 ▸ h4, h5, allowed_app h7, h8, h9, h10⟩

/-- C49: the same of an authentication. -/
theorem C49_authentication_scope {app : App} {evs : List Event} {f : Form} {now : Int}
    (h : reply app evs (.authenticationResponse f now) = success) :
    ∃ n c name cdj raw sig handle d text, Submits app f n c name ∧
      c.response = .assertion cdj raw sig handle ∧
      ClientJson app.env cdj d ∧ Lookup d (.str "type") (.str "webauthn.get") ∧
      Lookup d (.str "origin") (.str text) ∧
      OriginOf app.env text ⟨"http", "localhost:5000", 5000⟩ ∧
      RpHashOk app.env raw "localhost" ∧ FlagSet raw 0 := by
  obtain ⟨n, c, name, ch, u, row, key, user, r, ad, h1, -, -, -, -, -, -, -, -,
    ⟨cdj, raw, sig, handle, h2, -, h3, ⟨cd, ⟨d, h4, h5, -, h6, -⟩, h7, -, h8, -⟩, ⟨-, h9, h10, -⟩,
      -⟩, -⟩ := authentication_success h
  have e : r = rp := by
    cases h3
    rfl
  subst e
  exact ⟨n, c, name, cdj, raw, sig, handle, d, _, h1, h2, h4, h7 ▸ h5, h6, allowed_app h8, h9, h10⟩

/-! ## C56 -/

/-- The application accepts an honest registration that names a challenge issued
at most 60000 ms ago to any user. -/
theorem registration_accepted {app : App} (codec : CodecLaws app.env) (json : JsonLaw app.env)
    {evs : List Event} {f : Form} {now t : Int} {n uid : Nat} {ch key : Bytes} {u : User}
    {chText : String} {c : Credential} {cdj ob raw : Bytes} {ad : AuthData}
    {acd : AttestedCredentialData} {k : CPK}
    (hu1 : u ∈ (run app evs).users) (hrow : ⟨n, ch, t, uid⟩ ∈ (run app evs).challenges)
    (ht : now - t ≤ 60000)
    (hf : Submits app f n c u.username) (hresp : c.response = .attestation cdj ob)
    (hcdj : ClientDataText "webauthn.create" chText "http://localhost:5000" none cdj)
    (hch : Base64UrlText chText ch) (hob : EncodedNoneAttestation app.env raw ob)
    (had : EncodedAuthData app.env ad raw) (hacd : ad.attested = some acd)
    (hk : acd.credentialPublicKey = some k) (hkey : coseKey app.env k = .ok key)
    (hrp : RpHashOk app.env raw "localhost") (hup : FlagSet raw 0)
    (hnew : ∀ pre e name k, Occurs evs pre e → ¬ Registers app pre e c.rawId name k) :
    reply app evs (.registrationResponse f now) = success := by
  have inv := inv_run app evs
  have hread : readResponse app true f now (run app evs) = .ok (c, ⟨n, ch, t, uid⟩, u) :=
    readResponse_ok_iff.mpr ⟨n, u.username, hf, by rw [hresp]; rfl, inv.find_challenge hrow,
      inv.find_name hu1, ht⟩
  have hh := C52_honest_registration codec json (reg := registrar app.env)
    (a := attestationArgs c ⟨n, ch, t, uid⟩ u) (s := run app evs) hresp hcdj hch hob had hacd hrp hup
    (fun h => nomatch h) (fun l hl => nomatch hl) (expected_app _)
    (originAllowed_of (expected_app _) (List.mem_singleton.mpr rfl)) .none (s' := { run app evs with
      credentials := (run app evs).credentials ++ [⟨c.rawId, none, key, u.id⟩] }) (by
      show registerAttestation app.env _ _ = _
      have hany : ((run app evs).credentials.any fun r => r.id == c.rawId) = false := by
        rw [List.any_eq_false]
        intro r hr he
        obtain ⟨pre', e', v, k', h1, -, -, h2, -⟩ := inv.credentials r hr
        exact hnew pre' e' _ k' h1 ((show r.id = c.rawId by simpa using he) ▸ h2)
      have hu : (run app evs).userOfHandle u.handle = some u := inv.find_handle hu1
      simp only [registerAttestation, attestationArgs, User.entity, hacd, hu, hk, hkey, hany,
        Bool.false_eq_true, if_false])
  show (registrationResponse app f now (run app evs)).1 = _
  rw [registrationResponse_eq hread hh]
  rfl

/-- The application accepts an honest authentication that names a challenge issued
at most 60000 ms ago to any user. -/
theorem authentication_accepted {app : App} (codec : CodecLaws app.env) (json : JsonLaw app.env)
    {evs pre' : List Event} {e' : Event} {f : Form} {now t : Int} {n uid : Nat} {ch : Bytes}
    {chText : String} {c : Credential} {cdj raw sig : Bytes} {handle : Option Bytes}
    {ad : AuthData} {k : CPK} {v : User}
    (hu1 : v ∈ (run app evs).users) (hrow : ⟨n, ch, t, uid⟩ ∈ (run app evs).challenges)
    (ht : now - t ≤ 60000)
    (ho' : Occurs evs pre' e') (hr : Registers app pre' e' c.rawId v.username k)
    (hf : Submits app f n c v.username) (hresp : c.response = .assertion cdj raw sig handle)
    (hcdj : ClientDataText "webauthn.get" chText "http://localhost:5000" none cdj)
    (hch : Base64UrlText chText ch)
    (hhandle : ∀ h, handle = some h → v.handle = h)
    (had : EncodedAuthData app.env ad raw) (hrp : RpHashOk app.env raw "localhost")
    (hup : FlagSet raw 0) (hsig : SignedBy app.env k sig (raw ++ app.env.sha256 cdj))
    (hcount : ∀ pre e m, Occurs evs pre e → Authenticates app pre e c.rawId m → m < ad.signCount) :
    reply app evs (.authenticationResponse f now) = success := by
  have inv := inv_run app evs
  obtain ⟨v', row, hv1, hv2, hrow', hid, huid, hkey⟩ := registered_row ho' hr
  obtain rfl : v' = v := pairwise_unique inv.names hv1 hu1 hv2
  have hread : readResponse app false f now (run app evs) = .ok (c, ⟨n, ch, t, uid⟩, v') :=
    readResponse_ok_iff.mpr ⟨n, v'.username, hf, by rw [hresp]; rfl, inv.find_challenge hrow,
      inv.find_name hu1, ht⟩
  have hcred : (run app evs).credential c.rawId = some row := hid ▸ inv.find_credential hrow'
  have hd : ∃ d, CoseKeyOf d k := by
    obtain ⟨_, _, _, _, _, _, _, _, _, -, -, -, -, -, e1, e2, e3⟩ := hr
    exact attested_key_dict e1 e2 e3
  have hparse := C27_stored_key codec (hd.imp fun _ => parseCoseKeyDict_ok_iff.mpr) hkey
  have hget : credentialData app.env c.rawId (run app evs) =
      .ok (some ⟨asStored k, row.count, v'.entity, none⟩) := by
    simp only [credentialData, hcred, hparse, ok_bind, huid, inv.find_id hu1]
    rfl
  have hh := C52_honest_authentication codec json (reg := registrar app.env)
    (a := assertionArgs c ⟨n, ch, t, uid⟩ v') (s := run app evs) (s1 := run app evs)
    (cd := ⟨asStored k, row.count, v'.entity, none⟩) (user := v'.entity) (rp := rp)
    (congrArg (·, run app evs) hget)
    (fun l hl => nomatch hl) hresp hcdj hch
    (.given _ _ rfl (fun h hh => (hhandle h hh).symm)) (.arg _) had hrp hup
    (fun h => nomatch h) (fun l hl => nomatch hl) (signedBy_asStored.mpr hsig) (fun m hm _ => by
      obtain ⟨pre'', e'', h1, h2⟩ := inv.counts row hrow' m hm
      exact ⟨ad.signCount, (authDataOf_head (encodedAuthData_of codec had)).2.2.2,
        hcount pre'' e'' m h1 (hid ▸ h2)⟩) (expected_app _)
    (originAllowed_of (expected_app _) (List.mem_singleton.mpr rfl)) .none (s' := { run app evs with
      credentials := (run app evs).credentials.map (setCount c.rawId ad.signCount) }) (by
      show registerAssertion _ _ = _
      simp only [registerAssertion, assertionArgs, hcred])
  show (authenticationResponse app f now (run app evs)).1 = _
  rw [authenticationResponse_eq hread hh]
  rfl

/-- C56, registration: the application accepts the honest response to a challenge
it issued to the user at most 60000 ms ago, when the credential id is new. -/
theorem C56_registration {app : App} (codec : CodecLaws app.env) (json : JsonLaw app.env)
    {evs pre : List Event} {e : Event} {f : Form} {now t : Int} {n : Nat} {ch key : Bytes}
    {name chText : String} {c : Credential} {cdj ob raw : Bytes} {ad : AuthData}
    {acd : AttestedCredentialData} {k : CPK}
    -- the challenge
    (ho : Occurs evs pre e) (hi : Issues app pre e n ch t name) (ht : now - t ≤ 60000)
    -- the form and the response of the browser
    (hf : Submits app f n c name) (hresp : c.response = .attestation cdj ob)
    (hcdj : ClientDataText "webauthn.create" chText "http://localhost:5000" none cdj)
    (hch : Base64UrlText chText ch) (hob : EncodedNoneAttestation app.env raw ob)
    -- the authenticator data
    (had : EncodedAuthData app.env ad raw) (hacd : ad.attested = some acd)
    (hk : acd.credentialPublicKey = some k) (hkey : coseKey app.env k = .ok key)
    (hrp : RpHashOk app.env raw "localhost") (hup : FlagSet raw 0)
    -- the credential id is new
    (hnew : ∀ pre e name k, Occurs evs pre e → ¬ Registers app pre e c.rawId name k) :
    reply app evs (.registrationResponse f now) = success := by
  obtain ⟨u, hu1, rfl, hrow⟩ := issued_row ho hi
  exact registration_accepted codec json hu1 hrow ht hf hresp hcdj hch hob had hacd hk hkey hrp hup
    hnew

/-- C56, authentication: the application accepts the honest response to a
challenge it issued to the user at most 60000 ms ago, with a credential that the
user registered, when the counter exceeds all the counters of earlier successful
authentications with it. -/
theorem C56_authentication {app : App} (codec : CodecLaws app.env) (json : JsonLaw app.env)
    {evs pre pre' : List Event} {e e' : Event} {f : Form} {now t : Int} {n : Nat} {ch : Bytes}
    {name chText : String} {c : Credential} {cdj raw sig : Bytes} {handle : Option Bytes}
    {ad : AuthData} {k : CPK}
    -- the challenge and the registration
    (ho : Occurs evs pre e) (hi : Issues app pre e n ch t name) (ht : now - t ≤ 60000)
    (ho' : Occurs evs pre' e') (hr : Registers app pre' e' c.rawId name k)
    -- the form and the response of the browser
    (hf : Submits app f n c name) (hresp : c.response = .assertion cdj raw sig handle)
    (hcdj : ClientDataText "webauthn.get" chText "http://localhost:5000" none cdj)
    (hch : Base64UrlText chText ch)
    (hhandle : ∀ h, handle = some h → ∃ u ∈ (run app evs).users, u.username = name ∧ u.handle = h)
    -- the authenticator data and its signature
    (had : EncodedAuthData app.env ad raw) (hrp : RpHashOk app.env raw "localhost")
    (hup : FlagSet raw 0) (hsig : SignedBy app.env k sig (raw ++ app.env.sha256 cdj))
    (hcount : ∀ pre e m, Occurs evs pre e → Authenticates app pre e c.rawId m → m < ad.signCount) :
    reply app evs (.authenticationResponse f now) = success := by
  obtain ⟨u, hu1, rfl, hrow⟩ := issued_row ho hi
  refine authentication_accepted codec json hu1 hrow ht ho' hr hf hresp hcdj hch (fun h hh => ?_) had
    hrp hup hsig hcount
  obtain ⟨w, hw1, hw2, hw3⟩ := hhandle h hh
  obtain rfl : w = u := pairwise_unique (inv_run app evs).names hw1 hu1 hw2
  exact hw3

end WebAuthn.Flask
