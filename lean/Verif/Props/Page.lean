import Verif.Props.FlaskHonest
import Verif.Lemmas.Page
import Verif.Lemmas.PageJson

/-!
# The page of the example application (C57)
-/

namespace WebAuthn.Flask

open WebAuthn WebAuthn.Spec WebAuthn.Props WebAuthn.Base64

/-! ## Replies to requests -/

theorem users_stay {app : App} {pre : List Event} {e : Event} {evs : List Event} (h : Occurs evs pre e)
    {u : User} (hu : u ∈ (run app (pre ++ [e])).users) : u ∈ (run app evs).users := by
  obtain ⟨post, rfl⟩ := h
  obtain ⟨us, h1⟩ := (run_prefix app (pre ++ [e]) post).1
  rw [List.append_assoc, List.singleton_append] at h1
  rw [h1]
  exact List.mem_append_left _ hu

theorem registrationRequest_json {app : App} {pre : List Event} {name : String} {hd ch : Bytes} {t : Int}
    {v : PyVal} (h : reply app pre (.registrationRequest (some name) hd ch t) = .json v) :
    ∃ u n w, u ∈ (run app (pre ++ [.registrationRequest (some name) hd ch t])).users ∧
      u.username = name ∧ n ≤ pre.length + 1 ∧
      v = .dict [(.str "challengeID", .int (n : Nat)), (.str "creationOptions", w)] ∧
      CreationJson (creationFor { name := name, id := u.handle, displayName := name } ch) w := by
  have h : (registrationRequest (some name) hd ch t (run app pre)).1 = .json v := h
  rw [run_snoc]
  show ∃ u n w, u ∈ (registrationRequest (some name) hd ch t (run app pre)).2.users ∧ _
  have main : ∀ (u : User) (db : Db), u ∈ db.users → u.username = name →
      db.challenges = (run app pre).challenges →
      findOrAddUser (run app pre) name hd = (.ok u, db) →
      ∃ u n w, u ∈ (registrationRequest (some name) hd ch t (run app pre)).2.users ∧
        u.username = name ∧ n ≤ pre.length + 1 ∧
        v = .dict [(.str "challengeID", .int (n : Nat)), (.str "creationOptions", w)] ∧
        CreationJson (creationFor { name := name, id := u.handle, displayName := name } ch) w := by
    intro u db hu hn hc hf
    rcases addChallenge_cases db ch t u.id with ha | ⟨-, ha⟩
    · simp only [registrationRequest, hf, ha] at h
      cases h
    · obtain ⟨w, hw, hj⟩ := creation_reply (db.challenges.length + 1)
        { name := name, id := u.handle, displayName := name } ch
      simp only [registrationRequest, hf, ha] at h ⊢
      rw [hw] at h
      have := challenges_length app pre
      exact ⟨u, _, w, hu, hn, by rw [hc]; omega, (Reply.json.inj h).symm, hj⟩
  rcases findOrAddUser_cases (run app pre) name hd with ⟨u, hu, hn, hf⟩ | hf | ⟨-, hf⟩
  · exact main u _ hu hn rfl hf
  · simp only [registrationRequest, hf] at h
    cases h
  · refine main _ _ ?_ rfl ?_ hf
    · exact List.mem_append_right _ (List.mem_singleton.mpr rfl)
    · rfl

theorem authenticationRequest_json {app : App} {pre : List Event} {name : String} {ch : Bytes} {t : Int}
    {v : PyVal} (h : reply app pre (.authenticationRequest (some name) ch t) = .json v) :
    ∃ u n w, u ∈ (run app pre).users ∧ u.username = name ∧ n ≤ pre.length + 1 ∧
      v = .dict [(.str "challengeID", .int (n : Nat)), (.str "requestOptions", w)] ∧
      RequestJson (requestFor ((run app pre).credentials.filter fun c => c.userId == u.id) ch) w := by
  have h : (authenticationRequest (some name) ch t (run app pre)).1 = .json v := h
  cases hu : (run app pre).userNamed name with
  | none =>
    simp only [authenticationRequest, hu] at h
    cases h
  | some u =>
    obtain ⟨hu1, hu2⟩ := userNamed_some hu
    rcases addChallenge_cases (run app pre) ch t u.id with ha | ⟨-, ha⟩
    · simp only [authenticationRequest, hu, ha] at h
      cases h
    · obtain ⟨w, hw, hj⟩ := request_reply ((run app pre).challenges.length + 1)
        ((run app pre).credentials.filter fun c => c.userId == u.id) ch
      simp only [authenticationRequest, hu, ha] at h
      rw [hw] at h
      have := challenges_length app pre
      exact ⟨u, _, w, hu1, hu2, by omega, (Reply.json.inj h).symm, hj⟩

/-- Every user is that of a registration request. -/
theorem users_requested (app : App) (evs : List Event) : ∀ u ∈ (run app evs).users,
    ∃ pre ch t, Occurs evs pre (.registrationRequest (some u.username) u.handle ch t) := by
  induction evs using List.reverseRecOn with
  | nil => intro u hu; cases hu
  | append_singleton evs e ih =>
    intro u hu
    rw [run_snoc] at hu
    have old : u ∈ (run app evs).users →
        ∃ pre ch t, Occurs (evs ++ [e]) pre (.registrationRequest (some u.username) u.handle ch t) := by
      intro hu
      obtain ⟨pre, ch, t, h⟩ := ih u hu
      exact ⟨pre, ch, t, occurs_snoc h⟩
    cases e with
    | registrationRequest name hd ch t =>
      have hu : u ∈ (registrationRequest name hd ch t (run app evs)).2.users := hu
      cases name with
      | none => exact old hu
      | some name =>
        have key : ∀ (x : User) (db : Db), findOrAddUser (run app evs) name hd = (.ok x, db) →
            u ∈ db.users := by
          intro x db hf
          rcases addChallenge_cases db ch t x.id with ha | ⟨-, ha⟩ <;>
            simpa only [registrationRequest, hf, ha] using hu
        rcases findOrAddUser_cases (run app evs) name hd with ⟨x, -, -, hf⟩ | hf | ⟨-, hf⟩
        · exact old (key _ _ hf)
        · simp only [registrationRequest, hf] at hu
          exact old hu
        · rcases List.mem_append.mp (key _ _ hf) with h | h
          · exact old h
          · rw [List.mem_singleton] at h
            subst h
            exact ⟨evs, ch, t, occurs_last _ _⟩
    | authenticationRequest name ch t =>
      have hu : u ∈ (authenticationRequest name ch t (run app evs)).2.users := hu
      cases name with
      | none => exact old hu
      | some name =>
        cases hx : (run app evs).userNamed name with
        | none =>
          simp only [authenticationRequest, hx] at hu
          exact old hu
        | some x =>
          rcases addChallenge_cases (run app evs) ch t x.id with ha | ⟨-, ha⟩ <;>
            simp only [authenticationRequest, hx, ha] at hu <;> exact old hu
    | registrationResponse f t =>
      have hu : u ∈ (registrationResponse app f t (run app evs)).2.users := hu
      cases hr : readResponse app true f t (run app evs) with
      | error r =>
        simp only [registrationResponse, hr] at hu
        exact old hu
      | ok x =>
        obtain ⟨c, ch, x⟩ := x
        rcases hh : handleAttestation app.env (registrar app.env) (attestationArgs c ch x) (run app evs)
          with ⟨r, db'⟩
        rw [registrationResponse_eq hr hh] at hu
        rcases handleAttestation_db app.env (attestationArgs c ch x) (run app evs) with ⟨h, -⟩ |
          ⟨_, _, _, _, _, _, -, -, -, -, -, -, h⟩
        · rw [hh] at h
          obtain rfl : db' = run app evs := h
          exact old hu
        · rw [hh] at h
          obtain ⟨-, rfl⟩ := Prod.mk.inj h
          exact old hu
    | authenticationResponse f t =>
      have hu : u ∈ (authenticationResponse app f t (run app evs)).2.users := hu
      cases hr : readResponse app false f t (run app evs) with
      | error r =>
        simp only [authenticationResponse, hr] at hu
        exact old hu
      | ok x =>
        obtain ⟨c, ch, x⟩ := x
        rcases hh : handleAssertion app.env (registrar app.env) (assertionArgs c ch x) (run app evs)
          with ⟨r, db'⟩
        rw [authenticationResponse_eq hr hh] at hu
        rcases handleAssertion_db app.env (assertionArgs c ch x) (run app evs) with ⟨h, -⟩ |
          ⟨_, _, _, _, -, -, h⟩
        · rw [hh] at h
          obtain rfl : db' = run app evs := h
          exact old hu
        · rw [hh] at h
          obtain ⟨-, rfl⟩ := Prod.mk.inj h
          exact old hu

theorem challenge_fresh {app : App} {pre : List Event} {ch : Bytes}
    (h : ∀ pre' e' n t name, Occurs pre pre' e' → ¬ Issues app pre' e' n ch t name) :
    ∀ c ∈ (run app pre).challenges, c.request ≠ ch := by
  rintro c hc rfl
  obtain ⟨pre', e', u, h1, -, -, h2⟩ := (inv_run app pre).challenges c hc
  exact h _ _ _ _ _ h1 h2

theorem addChallenge_fresh {db : Db} {ch : Bytes} (h : ∀ c ∈ db.challenges, c.request ≠ ch) (t : Int)
    (n : Nat) : db.addChallenge ch t n = (.ok (db.challenges.length + 1),
      { db with challenges := db.challenges ++ [⟨db.challenges.length + 1, ch, t, n⟩] }) := by
  unfold Db.addChallenge
  rw [if_neg]
  simpa using h

/-- C57: a registration request is answered with options when its random bytes
are new: the challenge was never issued, the handle never drawn. -/
theorem C57_registration_answered {app : App} {pre : List Event} (name : String) {hd ch : Bytes}
    (t : Int) (hch : ∀ pre' e' n t name, Occurs pre pre' e' → ¬ Issues app pre' e' n ch t name)
    (hhd : ∀ pre' name ch t, ¬ Occurs pre pre' (.registrationRequest (some name) hd ch t)) :
    ∃ v, reply app pre (.registrationRequest (some name) hd ch t) = .json v := by
  have hch := challenge_fresh hch
  have main : ∀ (u : User) (db : Db), db.challenges = (run app pre).challenges →
      findOrAddUser (run app pre) name hd = (.ok u, db) →
      ∃ v, (registrationRequest (some name) hd ch t (run app pre)).1 = .json v := by
    intro u db hdb hf
    have ha := addChallenge_fresh (by rw [hdb]; exact hch) t u.id (db := db)
    obtain ⟨w, hw, -⟩ := creation_reply (db.challenges.length + 1)
      { name := name, id := u.handle, displayName := name } ch
    simp only [registrationRequest, hf, ha]
    exact ⟨_, hw⟩
  rcases findOrAddUser_cases (run app pre) name hd with ⟨u, -, -, hf⟩ | hf | ⟨-, hf⟩
  · exact main _ _ rfl hf
  · exfalso
    cases hu : (run app pre).userNamed name with
    | some u =>
      simp only [findOrAddUser, hu] at hf
      cases hf
    | none =>
      simp only [findOrAddUser, hu] at hf
      unfold Db.addUser at hf
      split at hf
      · rename_i h
        rw [List.any_eq_true] at h
        obtain ⟨u, h1, h2⟩ := h
        rw [Bool.or_eq_true, beq_iff_eq, beq_iff_eq] at h2
        rcases h2 with rfl | rfl
        · rw [(inv_run app pre).find_name h1] at hu
          cases hu
        · obtain ⟨pre', ch', t', ho⟩ := users_requested app pre u h1
          exact hhd _ _ _ _ ho
      · cases hf
  · refine main _ _ ?_ hf
    rfl

/-- C57: an authentication request of a user who was answered before is answered
with options when the challenge was never issued. -/
theorem C57_authentication_answered {app : App} {pre pre' : List Event} {e' : Event} {n' : Nat}
    {ch ch' : Bytes} {name : String} {t' : Int} (t : Int)
    (hch : ∀ pre' e' n t name, Occurs pre pre' e' → ¬ Issues app pre' e' n ch t name)
    (ho : Occurs pre pre' e') (hi : Issues app pre' e' n' ch' t' name) :
    ∃ v, reply app pre (.authenticationRequest (some name) ch t) = .json v := by
  have hch := challenge_fresh hch
  obtain ⟨u, hu1, rfl, -⟩ := issued_row ho hi
  have hu := (inv_run app pre).find_name hu1
  have ha := addChallenge_fresh hch t u.id
  obtain ⟨w, hw, -⟩ := request_reply ((run app pre).challenges.length + 1)
    ((run app pre).credentials.filter fun c => c.userId == u.id) ch
  have : (authenticationRequest (some u.username) ch t (run app pre)).1 = .json
      (.dict [(.str "challengeID", .int ((run app pre).challenges.length + 1 : Nat)),
        (.str "requestOptions", w)]) := by
    simp only [authenticationRequest, hu, ha]
    exact hw
  exact ⟨_, this⟩

/-! ## The arguments of the browser calls -/

theorem creationCall_json {n : Nat} {v w : PyVal} (h : Page.parseCreationOptions v = some w) :
    Page.creationCall (.json (.dict [(.str "challengeID", .int n), (.str "creationOptions", v)])) =
      some w := h

theorem requestCall_json {n : Nat} {v w : PyVal} (h : Page.parseRequestOptions v = some w) :
    Page.requestCall (.json (.dict [(.str "challengeID", .int n), (.str "requestOptions", v)])) =
      some w := h

/-- C57: the reply to a registration request makes the page pass the challenge and
the handle of the user to the browser as the bytes that the application has, and
the other options as they are. -/
theorem C57_creation_argument {app : App} {pre : List Event} {name : String} {hd ch : Bytes} {t : Int}
    {v : PyVal} (h : reply app pre (.registrationRequest (some name) hd ch t) = .json v) :
    ∃ opts u, Page.creationCall (.json v) = some opts ∧
      u ∈ (run app (pre ++ [.registrationRequest (some name) hd ch t])).users ∧ u.username = name ∧
      CreationArgument name u.handle ch opts := by
  obtain ⟨u, n, w, h1, h2, -, rfl, h3⟩ := registrationRequest_json h
  obtain ⟨opts, h4, h5⟩ := Page.creation_argument h3
  exact ⟨opts, u, creationCall_json h4, h1, h2, h5⟩

/-- C57: the reply to an authentication request makes the page pass the challenge
to the browser as the bytes that the application has, and the ids of exactly the
credentials that the user registered. -/
theorem C57_request_argument {app : App} {pre : List Event} {name : String} {ch : Bytes} {t : Int}
    {v : PyVal} (h : reply app pre (.authenticationRequest (some name) ch t) = .json v) :
    ∃ opts ids, Page.requestCall (.json v) = some opts ∧ RequestArgument ch ids opts ∧ ids.Nodup ∧
      ∀ id, id ∈ ids ↔ ∃ pre' e' k, Occurs pre pre' e' ∧ Registers app pre' e' id name k := by
  obtain ⟨u, n, w, h1, rfl, -, rfl, h3⟩ := authenticationRequest_json h
  obtain ⟨opts, h4, h5⟩ := Page.request_argument h3
  have inv := inv_run app pre
  refine ⟨opts, _, requestCall_json h4, h5, ?_, fun id => ⟨fun hid => ?_, ?_⟩⟩
  · rw [List.Nodup, List.pairwise_map]
    exact inv.credentialIds.sublist List.filter_sublist
  · obtain ⟨row, hrow, rfl⟩ := List.mem_map.mp hid
    obtain ⟨hrow, hu⟩ := List.mem_filter.mp hrow
    obtain ⟨pre', e', u', k, h6, h7, h8, h9, -⟩ := inv.credentials row hrow
    obtain rfl : u' = u := inv.userId_unique h7 h1 (h8.trans (by simpa using hu))
    exact ⟨pre', e', k, h6, h9⟩
  · rintro ⟨pre', e', k, ho, hr⟩
    obtain ⟨u', row, h6, h7, h8, rfl, h9, -⟩ := registered_row ho hr
    obtain rfl : u' = u := pairwise_unique inv.names h6 h1 h7
    exact List.mem_map.mpr ⟨row, List.mem_filter.mpr ⟨h8, by simpa using h9⟩, rfl⟩

theorem creation_publicKey {name : String} {handle ch : Bytes} {opts : PyVal} {d : Dict}
    (h : CreationArgument name handle ch opts) (hd : PublicKeyIn opts d) :
    Members (Page.creationFields
      (Members [("name", some (IsText "localhost")), ("icon", none), ("id", some (IsText "localhost"))])
      (Members [("name", some (IsText name)), ("icon", none), ("id", some (IsBytes handle)),
        ("displayName", some (IsText name))]) (IsBytes ch)
      (fun v => ∃ p, v = .list [p] ∧
        Members [("type", some (IsText "public-key")), ("alg", some (IsInt (-7)))] p)
      (IsInt 60000) (IsText "none")) (.dict d) := by
  obtain ⟨o, rfl, hd⟩ := hd
  obtain ⟨P, hP, h1⟩ := Page.members_at h hd
  rw [List.mem_singleton, Prod.mk.injEq, Option.some.injEq] at hP
  obtain ⟨-, rfl⟩ := hP
  exact h1

theorem creation_challenge {name : String} {handle ch ch' : Bytes} {opts : PyVal}
    (h : CreationArgument name handle ch opts) (h' : ChallengeIn opts ch') : ch' = ch := by
  obtain ⟨d, hd, h'⟩ := h'
  obtain ⟨P, hP, h1⟩ := Page.members_at (creation_publicKey h hd) h'
  simp at hP
  subst hP
  exact PyVal.bytes.inj h1

theorem creation_rpId {name rp : String} {handle ch : Bytes} {opts : PyVal}
    (h : CreationArgument name handle ch opts) (h' : RpIdIn opts rp) : rp = "localhost" := by
  obtain ⟨d, r, hd, hr, h'⟩ := h'
  obtain ⟨P, hP, h1⟩ := Page.members_at (creation_publicKey h hd) hr
  simp at hP
  subst hP
  obtain ⟨P, hP, h2⟩ := Page.members_at h1 h'
  simp at hP
  subst hP
  exact PyVal.str.inj h2

theorem creation_userId {name : String} {handle handle' ch : Bytes} {opts : PyVal}
    (h : CreationArgument name handle ch opts) (h' : UserIdIn opts handle') : handle' = handle := by
  obtain ⟨d, r, hd, hr, h'⟩ := h'
  obtain ⟨P, hP, h1⟩ := Page.members_at (creation_publicKey h hd) hr
  simp at hP
  subst hP
  obtain ⟨P, hP, h2⟩ := Page.members_at h1 h'
  simp at hP
  subst hP
  exact PyVal.bytes.inj h2

theorem request_publicKey {ids : List Bytes} {ch : Bytes} {opts : PyVal} {d : Dict}
    (h : RequestArgument ch ids opts) (hd : PublicKeyIn opts d) :
    Members (Page.requestFields (IsBytes ch) (IsInt 60000) (IsText "localhost")
      (fun v => ∃ vs, v = .list vs ∧ List.Forall₂ (fun id =>
        Members [("type", some (IsText "public-key")), ("id", some (IsBytes id)),
          ("transports", none)]) ids vs) (IsText "preferred")) (.dict d) := by
  obtain ⟨o, rfl, hd⟩ := hd
  obtain ⟨P, hP, h1⟩ := Page.members_at h hd
  simp at hP
  subst hP
  exact h1

theorem request_challenge {ids : List Bytes} {ch ch' : Bytes} {opts : PyVal}
    (h : RequestArgument ch ids opts) (h' : ChallengeIn opts ch') : ch' = ch := by
  obtain ⟨d, hd, h'⟩ := h'
  obtain ⟨P, hP, h1⟩ := Page.members_at (request_publicKey h hd) h'
  simp at hP
  subst hP
  exact PyVal.bytes.inj h1

theorem request_rpId {ids : List Bytes} {ch : Bytes} {rp : String} {opts : PyVal}
    (h : RequestArgument ch ids opts) (h' : RequestRpIdIn opts rp) : rp = "localhost" := by
  obtain ⟨d, hd, h'⟩ := h'
  obtain ⟨P, hP, h1⟩ := Page.members_at (request_publicKey h hd) h'
  simp at hP
  subst hP
  exact PyVal.str.inj h1

theorem request_allowed {ids : List Bytes} {ch id : Bytes} {opts : PyVal}
    (h : RequestArgument ch ids opts) (h' : AllowedIn opts id) : id ∈ ids := by
  obtain ⟨d, vs, c, hd, hvs, hc, hid⟩ := h'
  obtain ⟨P, hP, h1⟩ := Page.members_at (request_publicKey h hd) hvs
  simp at hP
  subst hP
  obtain ⟨_, e, h1⟩ := h1
  cases e
  obtain ⟨id', hid', h2⟩ := Page.forall₂_right h1 hc
  obtain ⟨P, hP, h3⟩ := Page.members_at h2 hid
  simp at hP
  subst hP
  rw [PyVal.bytes.inj h3]
  exact hid'

/-- A handle that the browser got is the one of the user. -/
theorem handleGiven_row {app : App} {evs : List Event} {name : String} {h : Bytes}
    (hg : HandleGiven app evs name h) :
    ∃ u ∈ (run app evs).users, u.username = name ∧ u.handle = h := by
  obtain ⟨pre, hd, ch, t, opts, ho, hc, hu⟩ := hg
  cases hr : reply app pre (.registrationRequest (some name) hd ch t) with
  | json v =>
    obtain ⟨opts', u, h1, h2, h3, h4⟩ := C57_creation_argument hr
    rw [hr, h1] at hc
    cases hc
    exact ⟨u, users_stay ho h2, h3, (creation_userId h4 hu).symm⟩
  | text m s => rw [hr] at hc; cases hc
  | crash e => rw [hr] at hc; cases hc

/-- C57: the handle that the browser gets identifies the user. -/
theorem C57_handles {app : App} {evs : List Event} {name name' : String} {h h' : Bytes}
    (hg : HandleGiven app evs name h) (hg' : HandleGiven app evs name' h') : name = name' ↔ h = h' := by
  obtain ⟨u, h1, rfl, rfl⟩ := handleGiven_row hg
  obtain ⟨u', h2, rfl, rfl⟩ := handleGiven_row hg'
  have inv := inv_run app evs
  exact ⟨fun e => by rw [pairwise_unique inv.names h1 h2 e], fun e => by rw [inv.handle_unique h1 h2 e]⟩

/-! ## The forms -/

theorem base64Text_page (b : Bytes) : Base64Text (Page.base64encode b) b :=
  b64decode_ok_iff.mp (b64decode_b64encode b)

theorem attestationJSON_names {c : Credential} {j : Page.CredJSON} (h : Page.attestationJSON c = some j) :
    (j.response.map Prod.fst).Nodup := by
  unfold Page.attestationJSON at h
  split at h
  · cases h
    simp
  · cases h

theorem assertionJSON_names {c : Credential} {j : Page.CredJSON} (h : Page.assertionJSON c = some j) :
    (j.response.map Prod.fst).Nodup := by
  unfold Page.assertionJSON at h
  split at h
  · cases h
  · cases h
    simp only
    split
    · simp
    · split <;> simp

/-- The object of a credential denotes the credential that is submitted. -/
theorem credJSON_denotes {c : Credential} {j : Page.CredJSON}
    (h : Page.attestationJSON c = some j ∨ Page.assertionJSON c = some j) :
    CredentialOf [(.str "type", .str j.type), (.str "id", .str j.id),
      (.str "rawId", .str j.rawId), (.str "response", .dict (j.response.map fun m => (.str m.1, .str m.2)))]
      (submitted c) := by
  obtain ⟨id, type, rawId, response⟩ := c
  cases response with
  | attestation cdj ob =>
    rcases h with h | h
    · cases h
      exact ⟨keysWithin_iff.mp rfl, lookup_iff.mpr rfl, lookup_iff.mpr rfl,
        ⟨_, lookup_iff.mpr rfl, base64Text_page _⟩, _, lookup_iff.mpr rfl, keysWithin_iff.mp rfl,
        ⟨_, lookup_iff.mpr rfl, base64Text_page _⟩, ⟨_, lookup_iff.mpr rfl, base64Text_page _⟩⟩
    · cases h
  | assertion cdj raw sig handle =>
    rcases h with h | h
    · cases h
    · rcases handle with _ | _ | ⟨x, xs⟩
      all_goals
        cases h
        refine ⟨keysWithin_iff.mp rfl, lookup_iff.mpr rfl, lookup_iff.mpr rfl,
          ⟨_, lookup_iff.mpr rfl, base64Text_page _⟩, _, lookup_iff.mpr rfl, keysWithin_iff.mp rfl,
          ⟨_, lookup_iff.mpr rfl, base64Text_page _⟩, ⟨_, lookup_iff.mpr rfl, base64Text_page _⟩,
          ⟨_, lookup_iff.mpr rfl, base64Text_page _⟩, ?_⟩
      · exact missing_iff.mpr rfl
      · exact missing_iff.mpr rfl
      · exact ⟨_, lookup_iff.mpr rfl, base64Text_page _⟩

theorem formFor_submits {app : App} (json : JsonLaw app.env) (rows : RowIdLaw app) {n : Nat}
    (hn : n ≤ 2 ^ 53) {key : String} {v : PyVal} {c : Credential} {j : Option Page.CredJSON}
    (hj : ∃ j', j = some j' ∧ (Page.attestationJSON c = some j' ∨ Page.assertionJSON c = some j'))
    (name : String) :
    ∃ f, Page.formFor (.json (.dict [(.str "challengeID", .int n), (.str key, v)])) j name = some f ∧
      Submits app f n (submitted c) name := by
  obtain ⟨j, rfl, hj⟩ := hj
  have hd : (j.response.map Prod.fst).Nodup := by
    rcases hj with h | h
    · exact attestationJSON_names h
    · exact assertionJSON_names h
  refine ⟨⟨some (toString n), some (Page.stringify j), some name⟩, ?_, _, _, _, rfl, rows n, rfl,
    json _ _ (Page.jsonText_stringify hd), credJSON_denotes hj, rfl⟩
  have e : Page.idText (.int (n : Nat)) = some (toString n) := if_pos hn
  show (Page.idText (.int (n : Nat))).bind _ = _
  rw [e]
  rfl

/-- C57: the form that the page makes of a reply and a created credential contains
the number of the challenge, the credential and the name. -/
theorem C57_registration_form {app : App} (json : JsonLaw app.env) (rows : RowIdLaw app) {n : Nat}
    (hn : n ≤ 2 ^ 53) (key : String) (v : PyVal) {c : Credential} {cdj ob : Bytes}
    (hc : c.response = .attestation cdj ob) (name : String) :
    ∃ f, Page.registrationForm (.json (.dict [(.str "challengeID", .int n), (.str key, v)])) c name =
      some f ∧ Submits app f n c name := by
  have hs : submitted c = c := by rw [submitted, hc]
  have := formFor_submits json rows hn (key := key) (v := v) (c := c) (j := Page.attestationJSON c)
    (by simp [Page.attestationJSON, hc]) name
  rwa [hs] at this

/-- C57: the same of a reply and an assertion; an empty handle is left out. -/
theorem C57_authentication_form {app : App} (json : JsonLaw app.env) (rows : RowIdLaw app) {n : Nat}
    (hn : n ≤ 2 ^ 53) (key : String) (v : PyVal) {c : Credential} {cdj raw sig : Bytes}
    {handle : Option Bytes} (hc : c.response = .assertion cdj raw sig handle) (name : String) :
    ∃ f, Page.authenticationForm (.json (.dict [(.str "challengeID", .int n), (.str key, v)])) c name =
      some f ∧ Submits app f n { c with
        response := .assertion cdj raw sig (if handle = some [] then none else handle) } name := by
  have hs : submitted c = { c with
      response := .assertion cdj raw sig (if handle = some [] then none else handle) } := by
    obtain ⟨id, type, rawId, response⟩ := c
    cases hc
    rcases handle with _ | _ | ⟨x, xs⟩ <;> rfl
  have := formFor_submits json rows hn (key := key) (v := v) (c := c) (j := Page.assertionJSON c)
    (by simp [Page.assertionJSON, hc]) name
  rwa [hs] at this

/-! ## From the page to the application and back -/

/-- C57, registration: the page turns the reply to a registration request into
options; whatever an honest browser and authenticator make of these, the page
turns into a form that the application accepts within 60000 ms, when the
credential id is new. -/
theorem C57_registration {app : App} (codec : CodecLaws app.env) (json : JsonLaw app.env)
    (rows : RowIdLaw app) {pre : List Event} {name : String}
    {hd ch : Bytes} {t : Int} {v : PyVal} (hl : pre.length < 2 ^ 53)
    (hr : reply app pre (.registrationRequest (some name) hd ch t) = .json v) :
    ∃ opts, Page.creationCall (.json v) = some opts ∧ ∀ mid now c k key,
      Created app.env "http://localhost:5000" opts c k → coseKey app.env k = .ok key →
      now - t ≤ 60000 →
      (∀ pre' e' name' k', Occurs (pre ++ .registrationRequest (some name) hd ch t :: mid) pre' e' →
        ¬ Registers app pre' e' c.rawId name' k') →
      ∃ f, Page.registrationForm (.json v) c name = some f ∧
        reply app (pre ++ .registrationRequest (some name) hd ch t :: mid)
          (.registrationResponse f now) = success := by
  obtain ⟨opts, u, h1, -, -, h2⟩ := C57_creation_argument hr
  refine ⟨opts, h1, fun mid now c k key hc hkey ht hnew => ?_⟩
  obtain ⟨cdj, ob, raw, ad, acd, ch', rp, hresp, hch, ⟨text, htext, hcdj⟩, hob, had, hacd, hk, hrp, hrph,
    hup⟩ := hc
  obtain rfl := creation_challenge h2 hch
  obtain rfl := creation_rpId h2 hrp
  obtain ⟨_, n, w, -, -, hn, rfl, -⟩ := registrationRequest_json hr
  obtain ⟨f, hf, hs⟩ := C57_registration_form json rows (n := n) (by omega) "creationOptions" w hresp name
  exact ⟨f, hf, C56_registration codec json ⟨mid, rfl⟩ ⟨⟨_, _, hr⟩, Or.inl ⟨hd, rfl⟩⟩ ht hs hresp hcdj
    htext hob had hacd hk hkey hrph hup hnew⟩

/-- C57, authentication: the page turns the reply to an authentication request
into options; whatever an honest browser and authenticator make of these with the
key that was registered, the page turns into a form that the application accepts
within 60000 ms, when the counter exceeds those of the earlier authentications
with the credential.  The handle of the user is returned, or an empty one, or
none. -/
theorem C57_authentication {app : App} (codec : CodecLaws app.env) (json : JsonLaw app.env)
    (rows : RowIdLaw app) {pre : List Event} {name : String}
    {ch : Bytes} {t : Int} {v : PyVal} (hl : pre.length < 2 ^ 53)
    (hr : reply app pre (.authenticationRequest (some name) ch t) = .json v) :
    ∃ opts, Page.requestCall (.json v) = some opts ∧ ∀ mid now c k m handle,
      Asserted app.env "http://localhost:5000" opts c k m handle →
      (∀ pre' e' k', Occurs pre pre' e' → Registers app pre' e' c.rawId name k' → k' = k) →
      (∀ h, handle = some h → h = [] ∨ HandleGiven app pre name h) →
      now - t ≤ 60000 →
      (∀ pre' e' m', Occurs (pre ++ .authenticationRequest (some name) ch t :: mid) pre' e' →
        Authenticates app pre' e' c.rawId m' → m' < m) →
      ∃ f, Page.authenticationForm (.json v) c name = some f ∧
        reply app (pre ++ .authenticationRequest (some name) ch t :: mid)
          (.authenticationResponse f now) = success := by
  obtain ⟨opts, ids, h1, h2, -, h3⟩ := C57_request_argument hr
  refine ⟨opts, h1, fun mid now c k m handle hc hkey hh ht hcount => ?_⟩
  obtain ⟨cdj, raw, sig, ad, ch', rp, hresp, hid, hch, ⟨text, htext, hcdj⟩, had, hm, hrp, hrph, hup,
    hsig⟩ := hc
  obtain rfl := request_challenge h2 hch
  obtain rfl := request_rpId h2 hrp
  obtain ⟨pre', e', k', ho', hreg⟩ := (h3 _).mp (request_allowed h2 hid)
  obtain rfl := hkey pre' e' k' ho' hreg
  obtain ⟨_, n, w, -, -, hn, rfl, -⟩ := authenticationRequest_json hr
  obtain ⟨f, hf, hs⟩ := C57_authentication_form json rows (n := n) (by omega) "requestOptions" w hresp name
  refine ⟨f, hf, C56_authentication codec json (c := { c with
      response := .assertion cdj raw sig (if handle = some [] then none else handle) })
    ⟨mid, rfl⟩ ⟨⟨_, _, hr⟩, Or.inr rfl⟩ ht ?_ hreg hs rfl hcdj htext
    (fun h hh' => ?_) had hrph hup hsig (fun p e x h4 h5 => ?_)⟩
  · obtain ⟨post, rfl⟩ := ho'
    exact ⟨post ++ .authenticationRequest (some name) ch' t :: mid, by simp⟩
  · have hne : handle = some h ∧ h ≠ [] := by
      split at hh'
      · cases hh'
      · exact ⟨hh', fun e => by subst e; contradiction⟩
    obtain ⟨u, hu1, hu2, hu3⟩ := handleGiven_row ((hh h hne.1).resolve_left hne.2)
    obtain ⟨us, hus⟩ := (run_prefix app pre (.authenticationRequest (some name) ch' t :: mid)).1
    exact ⟨u, by rw [hus]; exact List.mem_append_left _ hu1, hu2, hu3⟩
  · rw [hm]
    exact hcount p e x h4 h5

end WebAuthn.Flask
