import Verif.Spec.Flask
import Verif.Lemmas.Backend
import Verif.Props.Options
import Verif.Props.Interaction
import Verif.Props.Keys

/-!
# Lemmas about the example application
-/

namespace WebAuthn.Flask

open WebAuthn WebAuthn.Spec WebAuthn.Props

theorem occurs_snoc {evs pre : List Event} {e e' : Event} (h : Occurs evs pre e) :
    Occurs (evs ++ [e']) pre e := by
  obtain ⟨post, rfl⟩ := h
  exact ⟨post ++ [e'], by simp⟩

theorem occurs_last (evs : List Event) (e : Event) : Occurs (evs ++ [e]) evs e := ⟨[], rfl⟩

theorem run_snoc (app : App) (evs : List Event) (e : Event) :
    run app (evs ++ [e]) = (step app e (run app evs)).2 := by
  simp [run, List.foldl_append]

/-! ## Queries -/

theorem userNamed_some {db : Db} {name : String} {u : User} (h : db.userNamed name = some u) :
    u ∈ db.users ∧ u.username = name :=
  ⟨List.mem_of_find?_eq_some h, by simpa using List.find?_some h⟩

theorem userOfHandle_some {db : Db} {b : Bytes} {u : User} (h : db.userOfHandle b = some u) :
    u ∈ db.users ∧ u.handle = b :=
  ⟨List.mem_of_find?_eq_some h, by simpa using List.find?_some h⟩

theorem userOfId_some {db : Db} {n : Nat} {u : User} (h : db.userOfId n = some u) :
    u ∈ db.users ∧ u.id = n :=
  ⟨List.mem_of_find?_eq_some h, by simpa using List.find?_some h⟩

theorem credential_some {db : Db} {b : Bytes} {c : CredentialRow} (h : db.credential b = some c) :
    c ∈ db.credentials ∧ c.id = b :=
  ⟨List.mem_of_find?_eq_some h, by simpa using List.find?_some h⟩

theorem challenge_some {db : Db} {n : Option Nat} {c : Challenge} (h : db.challenge n = some c) :
    c ∈ db.challenges ∧ n = some c.id := by
  cases n with
  | none => cases h
  | some n =>
    have h : db.challenges.find? (fun c => c.id == n) = some c := h
    refine ⟨List.mem_of_find?_eq_some h, ?_⟩
    have := List.find?_some h
    simp only [beq_iff_eq] at this
    rw [this]

theorem addUser_cases (db : Db) (name : String) (h : Bytes) :
    db.addUser name h = (.error integrityError, db) ∨
    (∀ u ∈ db.users, u.username ≠ name ∧ u.handle ≠ h) ∧
    db.addUser name h = (.ok ⟨db.users.length + 1, name, h⟩,
      { db with users := db.users ++ [⟨db.users.length + 1, name, h⟩] }) := by
  unfold Db.addUser
  split
  · exact Or.inl rfl
  · rename_i hn
    refine Or.inr ⟨fun u hu => ?_, rfl⟩
    simp only [List.any_eq_true, Bool.or_eq_true, beq_iff_eq, not_exists, not_and, not_or] at hn
    exact hn u hu

theorem findOrAddUser_cases (db : Db) (name : String) (h : Bytes) :
    (∃ u ∈ db.users, u.username = name ∧ findOrAddUser db name h = (.ok u, db)) ∨
    findOrAddUser db name h = (.error integrityError, db) ∨
    (∀ u ∈ db.users, u.username ≠ name ∧ u.handle ≠ h) ∧
    findOrAddUser db name h = (.ok ⟨db.users.length + 1, name, h⟩,
      { db with users := db.users ++ [⟨db.users.length + 1, name, h⟩] }) := by
  cases hu : db.userNamed name with
  | some u =>
    obtain ⟨h1, h2⟩ := userNamed_some hu
    exact Or.inl ⟨u, h1, h2, by simp only [findOrAddUser, hu]⟩
  | none =>
    right
    simp only [findOrAddUser, hu]
    exact addUser_cases db name h

theorem addChallenge_cases (db : Db) (ch : Bytes) (t : Int) (n : Nat) :
    db.addChallenge ch t n = (.error integrityError, db) ∨
    (∀ c ∈ db.challenges, c.request ≠ ch) ∧
    db.addChallenge ch t n = (.ok (db.challenges.length + 1),
      { db with challenges := db.challenges ++ [⟨db.challenges.length + 1, ch, t, n⟩] }) := by
  unfold Db.addChallenge
  split
  · exact Or.inl rfl
  · rename_i hn
    refine Or.inr ⟨fun u hu => ?_, rfl⟩
    simp only [List.any_eq_true, beq_iff_eq, not_exists, not_and] at hn
    exact hn u hu

/-! ## The options -/

/-- The creation options of the application. -/
def creationFor (user : UserEntity) (ch : Bytes) : CreationOptions where
  rp := rp
  user := user
  challenge := ch
  pubKeyCredParams := { items := [⟨.value .ES256⟩] }
  timeout := some timeout
  excludeCredentials := none
  authenticatorSelection := none
  attestation := .NONE
  extensions := none

theorem creation_reply (id : Nat) (user : UserEntity) (ch : Bytes) :
    ∃ v, optionsReply id "creationOptions" (do
      let o ← creationBuilder.build (some user) (some ch)
      jsonify true o.toObj) =
        .json (.dict [(.str "challengeID", .int id), (.str "creationOptions", v)]) ∧
      CreationJson (creationFor user ch) v := by
  obtain ⟨v, hv, hj⟩ := C41_creation (creationFor user ch) ⟨by simp [Listed, creationFor],
    by simp [creationFor], by simp [creationFor]⟩
  refine ⟨v, ?_, hj⟩
  have : (do
      let o ← creationBuilder.build (some user) (some ch)
      jsonify true o.toObj) = .ok v := hv
  rw [this]
  rfl

/-- The request options of the application. -/
def requestFor (rows : List CredentialRow) (ch : Bytes) : RequestOptions where
  mediation := .OPTIONAL
  challenge := ch
  timeout := some timeout
  rpId := some rp.id
  allowCredentials := some { items := rows.map fun c : CredentialRow => { id := c.id } }
  userVerification := some .PREFERRED
  extensions := none

theorem request_reply (id : Nat) (rows : List CredentialRow) (ch : Bytes) :
    ∃ v, optionsReply id "requestOptions" (do
      let o ← requestBuilder.build (some ch) (some { items := rows.map fun c : CredentialRow => { id := c.id } })
      jsonify true o.toObj) =
        .json (.dict [(.str "challengeID", .int id), (.str "requestOptions", v)]) ∧
      RequestJson (requestFor rows ch) v := by
  obtain ⟨v, hv, hj⟩ := C41_request (requestFor rows ch) (by
    refine ⟨fun s hs => ?_, by simp [requestFor]⟩
    obtain rfl := Option.some.inj hs
    refine ⟨by simp [Listed], fun d hd t ht => ?_⟩
    obtain ⟨c, -, rfl⟩ := List.mem_map.mp hd
    cases ht)
  refine ⟨v, ?_, hj⟩
  have : (do
      let o ← requestBuilder.build (some ch) (some { items := rows.map fun c : CredentialRow => { id := c.id } })
      jsonify true o.toObj) = .ok v := hv
  rw [this]
  rfl

/-! ## Forms -/

theorem formField_ok_iff {o : Option String} {s : String} :
    formField o = .ok s ↔ o = some s := by
  cases o <;> simp [formField]

theorem parseForm_ok_iff {env : Env} {f : Form} {cid name : String} {c : Credential} :
    parseForm env f = .ok (cid, c, name) ↔
      f.challengeID = some cid ∧ f.username = some name ∧
      ∃ text d, f.credential = some text ∧ env.jsonLoads text = .ok (.dict d) ∧
        CredentialOf d c := by
  simp only [parseForm, bind_ok_iff, formField_ok_iff, pure_eq_ok, Except.ok.injEq, Prod.mk.injEq]
  constructor
  · rintro ⟨x, h1, text, h2, v, h3, c', h4, y, h5, rfl, rfl, rfl⟩
    cases v <;> try cases h4
    exact ⟨h1, h5, text, _, h2, h3, parseCredential_ok_iff.mp h4⟩
  · rintro ⟨h1, h2, text, d, h3, h4, h5⟩
    exact ⟨cid, h1, text, h3, _, h4, c, parseCredential_ok_iff.mpr h5, name, h2, rfl, rfl, rfl⟩

theorem readResponse_ok_iff {app : App} {att : Bool} {f : Form} {now : Int} {db : Db}
    {c : Credential} {ch : Challenge} {u : User} :
    readResponse app att f now db = .ok (c, ch, u) ↔
      ∃ n name, Submits app f n c name ∧ isAttestation c.response = att ∧
        db.challenge (some n) = some ch ∧ db.userNamed name = some u ∧
        now - ch.timestamp ≤ timeout := by
  unfold readResponse
  constructor
  · intro h
    split at h
    · split at h <;> cases h
    · rename_i cid c' name hp
      split at h
      · cases h
      rename_i hr
      split at h
      · cases h
      rename_i ch' hc
      split at h
      · cases h
      rename_i u' hu
      split at h
      · cases h
      rename_i ht
      cases h
      obtain ⟨h1, h2, text, d, h3, h4, h5⟩ := parseForm_ok_iff.mp hp
      obtain ⟨-, h6⟩ := challenge_some hc
      rw [h6] at hc
      refine ⟨ch.id, name, ⟨cid, text, d, h1, h6, h3, h4, h5, h2⟩, by simpa using hr, hc, hu, by omega⟩
  · rintro ⟨n, name, ⟨cid, text, d, h1, h2, h3, h4, h5, h6⟩, h7, h8, h9, h10⟩
    rw [parseForm_ok_iff.mpr ⟨h1, h6, text, d, h3, h4, h5⟩]
    simp only [h7, bne_self_eq_false, Bool.false_eq_true, if_false, h2, h8, h9]
    rw [if_neg (by omega)]

theorem conclude_success {m : String} {r : Py Unit} :
    conclude m r = success ↔ r = .ok () := by
  cases r with
  | ok u => simp [conclude]
  | error e =>
    simp only [conclude, reduceCtorEq, iff_false]
    split <;> simp [success]

/-! ## The registrar -/

/-- A change of the table of credentials by a registration. -/
theorem registerAttestation_cases (env : Env) (r : AttestationRecord) (db : Db) :
    (∃ x, x ≠ .ok none ∧ registerAttestation env r db = (x, db)) ∨
    ∃ acd u k key, r.att.authData.attested = some acd ∧ db.userOfHandle r.user.id = some u ∧
      acd.credentialPublicKey = some k ∧ coseKey env k = .ok key ∧
      (∀ c ∈ db.credentials, c.id ≠ r.credential.rawId) ∧
      registerAttestation env r db = (.ok none, { db with
        credentials := db.credentials ++ [⟨r.credential.rawId, none, key, u.id⟩] }) := by
  unfold registerAttestation
  cases h1 : r.att.authData.attested with
  | none => exact Or.inl ⟨_, by simp, rfl⟩
  | some acd =>
    cases h2 : db.userOfHandle r.user.id with
    | none => exact Or.inl ⟨_, by simp, rfl⟩
    | some u =>
      cases h3 : acd.credentialPublicKey with
      | none => exact Or.inl ⟨raise .unimplemented, by simp [raise], by simp only [h3]⟩
      | some k =>
        cases h4 : coseKey env k with
        | error e => exact Or.inl ⟨.error e, by simp, by simp only [h3, h4]⟩
        | ok key =>
          simp only [h3, h4]
          split
          · exact Or.inl ⟨_, by simp, rfl⟩
          · rename_i hn
            simp only [List.any_eq_true, beq_iff_eq, not_exists, not_and] at hn
            exact Or.inr ⟨acd, u, k, key, rfl, rfl, h3, h4, hn, rfl⟩

theorem handleAttestation_db (env : Env) (a : AttestationArgs) (db : Db) :
    (handleAttestation env (registrar env) a db).2 = db ∧
      (handleAttestation env (registrar env) a db).1 ≠ .ok () ∨
    ∃ o raw acd u k key, AttestationOk env a o raw ∧ o.authData.attested = some acd ∧
      db.userOfHandle a.user.id = some u ∧ acd.credentialPublicKey = some k ∧
      coseKey env k = .ok key ∧ (∀ c ∈ db.credentials, c.id ≠ a.credential.rawId) ∧
      handleAttestation env (registrar env) a db = (.ok (), { db with
        credentials := db.credentials ++ [⟨a.credential.rawId, none, key, u.id⟩] }) := by
  rcases hh : handleAttestation env (registrar env) a db with ⟨x, db'⟩
  by_cases hx : x = .ok ()
  · subst hx
    right
    obtain ⟨-, o, raw, h1, -, h2⟩ := attestation_accepts.mp hh
    rcases registerAttestation_cases env ⟨a.credential, o, .NONE, a.user, a.rp, none⟩ db with
      ⟨x, h3, h4⟩ | ⟨acd, u, k, key, h3, h4, h5, h6, h7, h8⟩
    · have h2 : registerAttestation env _ db = _ := h2
      rw [h4] at h2
      exact absurd (Prod.mk.inj h2).1 h3
    · have h2 : registerAttestation env _ db = _ := h2
      rw [h8] at h2
      refine ⟨o, raw, acd, u, k, key, h1, h3, h4, h5, h6, h7, ?_⟩
      rw [← (Prod.mk.inj h2).2]
  · refine Or.inl ⟨?_, hx⟩
    show db' = db
    cases hc : attestationChecks env a with
    | error e =>
      simp only [handleAttestation, hc] at hh
      exact (Prod.mk.inj hh).2.symm
    | ok r =>
      rcases registerAttestation_cases env r db with ⟨y, h3, h4⟩ |
        ⟨acd, u, k, key, h3, h4, h5, h6, h7, h8⟩
      · have h4 : (registrar env).registerAttestation r db = _ := h4
        simp only [handleAttestation, hc, h4] at hh
        exact (Prod.mk.inj hh).2.symm
      · have h8 : (registrar env).registerAttestation r db = _ := h8
        simp only [handleAttestation, hc, h8] at hh
        exact absurd (Prod.mk.inj hh).1.symm hx

/-- What an assertion may change: counters of the rows of one credential. -/
theorem registerAssertion_cases (r : AssertionRecord) (db : Db) :
    registerAssertion r db = (.error .attributeError, db) ∧ db.credential r.credential.rawId = none ∨
    (∃ c, db.credential r.credential.rawId = some c) ∧
    registerAssertion r db = (.ok none, { db with
      credentials := db.credentials.map (setCount r.credential.rawId r.authData.signCount) }) := by
  unfold registerAssertion
  cases h : db.credential r.credential.rawId with
  | none => exact Or.inl ⟨rfl, rfl⟩
  | some c => exact Or.inr ⟨⟨c, rfl⟩, rfl⟩

theorem handleAssertion_db (env : Env) (a : AssertionArgs) (db : Db) :
    (handleAssertion env (registrar env) a db).2 = db ∧
      (handleAssertion env (registrar env) a db).1 ≠ .ok () ∨
    ∃ cd user rp ad, credentialData env a.credential.rawId db = .ok (some cd) ∧
      AssertionOk env a cd user rp ad ∧
      handleAssertion env (registrar env) a db = (.ok (), { db with
        credentials := db.credentials.map (setCount a.credential.rawId ad.signCount) }) := by
  rcases hh : handleAssertion env (registrar env) a db with ⟨x, db'⟩
  by_cases hx : x = .ok ()
  · subst hx
    right
    obtain ⟨-, -, cd, s1, user, rp, ad, h1, h2, h3⟩ := assertion_accepts.mp hh
    have h1 : (credentialData env a.credential.rawId db, db) = _ := h1
    obtain ⟨h4, rfl⟩ := Prod.mk.inj h1
    have h3 : registerAssertion _ db = _ := h3
    rcases registerAssertion_cases ⟨a.credential, ad, user, rp⟩ db with ⟨h5, -⟩ | ⟨-, h5⟩
    · rw [h5] at h3
      cases (Prod.mk.inj h3).1
    · rw [h5] at h3
      refine ⟨cd, user, rp, ad, h4, h2, ?_⟩
      rw [← (Prod.mk.inj h3).2]
  · refine Or.inl ⟨?_, hx⟩
    show db' = db
    rcases handleAssertion_cases env (registrar env) a db with ⟨e, -, h⟩ | ⟨al, rd, s1, h1, h2, h3⟩
    · rw [h] at hh
      exact (Prod.mk.inj hh).2.symm
    · have h2 : (credentialData env a.credential.rawId db, db) = _ := h2
      obtain ⟨-, rfl⟩ := Prod.mk.inj h2
      rcases h3 with ⟨e, -, h3⟩ | ⟨cd, rfl, h3⟩
      · rw [h3] at hh
        exact (Prod.mk.inj hh).2.symm
      · rcases h3 with ⟨e, -, h3⟩ | ⟨r, w, s2, h3, h4, h5⟩
        · rw [h3] at hh
          exact (Prod.mk.inj hh).2.symm
        · rw [h5] at hh
          obtain ⟨h6, rfl⟩ := Prod.mk.inj hh
          have h4 : registerAssertion r db = _ := h4
          rcases registerAssertion_cases r db with ⟨h7, -⟩ | ⟨-, h7⟩
          · rw [h7] at h4
            exact (Prod.mk.inj h4).2.symm
          · rw [h7] at h4
            obtain ⟨rfl, -⟩ := Prod.mk.inj h4
            exact absurd h6.symm hx

end WebAuthn.Flask
