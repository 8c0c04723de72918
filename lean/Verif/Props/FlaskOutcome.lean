import Verif.Props.FlaskThreads
import Verif.Props.Outcome
import Verif.Props.OutcomeInput
import Verif.Spec.FlaskOutcome

/-!
# C64: every outcome of the requests to the example application
-/

namespace WebAuthn.Flask

open WebAuthn WebAuthn.Spec WebAuthn.Props

variable {app : App} {db : Db}

/-! ## Forms -/

theorem readable_iff {f : Form} {cid name : String} {c : Credential} :
    parseForm app.env f = .ok (cid, c, name) ↔ Readable app f cid c name := by
  rw [parseForm_ok_iff]
  constructor
  · rintro ⟨h1, h2, text, d, h3, h4, h5⟩
    exact ⟨text, d, h1, h3, h4, h5, h2⟩
  · rintro ⟨text, d, h1, h3, h4, h5, h2⟩
    exact ⟨h1, h2, text, d, h3, h4, h5⟩

theorem parseForm_interrupted {f : Form} {e : Exc} (h : Interrupted app f e) :
    parseForm app.env f = .error e := by
  obtain ⟨text, h1, h2, h3, -⟩ := h
  obtain ⟨cid, hc⟩ := Option.ne_none_iff_exists'.mp h1
  simp [parseForm, hc, h2, h3, formField]

theorem parseForm_error {f : Form} {e : Exc} (h : parseForm app.env f = .error e) :
    Interrupted app f e ∨ e.isException = true := by
  by_cases he : e.isException = true
  · exact Or.inr he
  left
  have hf : ∀ o, formField o ≠ .error e := by
    rintro (_ | _) h
    · cases h
      exact he rfl
    · cases h
  simp only [parseForm, bind_error_iff, formField_ok_iff] at h
  rcases h with h | ⟨cid, hcid, h⟩
  · exact absurd h (hf _)
  rcases h with h | ⟨text, htext, h⟩
  · exact absurd h (hf _)
  rcases h with h | ⟨v, hv, h⟩
  · exact ⟨text, by simp [hcid], htext, h, by rwa [← isException_iff]⟩
  rcases h with h | ⟨c, hc, h⟩
  · exfalso
    cases v <;> first
      | (cases h; exact he rfl)
      | (rcases raises_parseCredential _ _ h with rfl | rfl <;> exact he rfl)
  rcases h with h | ⟨name, -, h⟩
  · exact absurd h (hf _)
  · cases h

section
variable {Kind : Response → Prop} {att : Bool} (hk : ∀ r, Kind r ↔ isAttestation r = att)
include hk

theorem read_iff (hdb : Consistent db) {f : Form} {now : Int} {c : Credential} {ch : Challenge}
    {u : User} : readResponse app att f now db = .ok (c, ch, u) ↔ Read app Kind f now db c ch u := by
  rw [readResponse_ok_iff]
  constructor
  · rintro ⟨n, name, ⟨cid, text, d, h1, h2, h3, h4, h5, h6⟩, h7, h8, h9, h10⟩
    obtain ⟨h11, h12⟩ := challenge_some h8
    obtain ⟨h13, rfl⟩ := userNamed_some h9
    exact ⟨⟨cid, ⟨text, d, h1, h3, h4, h5, h6⟩, h2.trans h12⟩, (hk _).mpr h7, h11, h13, h10⟩
  · rintro ⟨⟨cid, ⟨text, d, h1, h3, h4, h5, h6⟩, h2⟩, h7, h8, h9, h10⟩
    exact ⟨ch.id, u.username, ⟨cid, text, d, h1, h2, h3, h4, h5, h6⟩, (hk _).mp h7,
      hdb.keyed.find_challenge h8, hdb.keyed.find_name h9, h10⟩

theorem unread_iff (hdb : Consistent db) {f : Form} {now : Int} {r : Reply} :
    readResponse app att f now db = .error r ↔ Unread app Kind f now db r := by
  have none_ch : ∀ {cid}, db.challenge (app.rowId cid) = none ↔
      ∀ ch ∈ db.challenges, app.rowId cid ≠ some ch.id := by
    intro cid
    unfold Db.challenge
    cases app.rowId cid with
    | none => simp
    | some n =>
      simp only [List.find?_eq_none, beq_iff_eq, ne_eq, Option.some.injEq]
      exact ⟨fun h ch hch e => h ch hch e.symm, fun h ch hch e => h ch hch e.symm⟩
  have none_user : ∀ {name}, db.userNamed name = none ↔ ∀ u ∈ db.users, u.username ≠ name := by
    intro name
    simp [Db.userNamed, List.find?_eq_none]
  unfold readResponse
  constructor
  · intro h
    split at h
    · rename_i e he
      rcases parseForm_error he with hi | hx
      · have : e.isException = false := by
          obtain ⟨_, _, _, _, h4⟩ := hi
          rw [← isException_iff] at h4
          simpa using h4
        rw [this] at h
        cases h
        exact .interrupted e hi
      · rw [hx] at h
        cases h
        refine .unreadable (fun e' hi => ?_) fun cid c name hr => ?_
        · have := parseForm_interrupted hi
          rw [he] at this
          cases this
          obtain ⟨_, _, _, _, h4⟩ := hi
          exact h4 (isException_iff.mp hx)
        · rw [readable_iff.mpr hr] at he
          cases he
    · rename_i cid c name hp
      have hr := readable_iff.mp hp
      split at h
      · rename_i hkind
        cases h
        exact .kind cid c name hr fun h => by simp [(hk _).mp h] at hkind
      rename_i hkind
      have hkind := (hk c.response).mpr (by simpa using hkind)
      split at h
      · rename_i hc
        cases h
        exact .challenge cid c name hr hkind (none_ch.mp hc)
      rename_i ch hc
      obtain ⟨h11, h12⟩ := challenge_some hc
      split at h
      · rename_i hu
        cases h
        exact .user cid c name ch hr hkind h11 h12 (none_user.mp hu)
      rename_i u hu
      obtain ⟨h13, rfl⟩ := userNamed_some hu
      split at h
      · rename_i ht
        cases h
        exact .late cid c ch u hr hkind h11 h12 h13 ht
      · cases h
  · intro h
    have kd : ∀ {c : Credential}, Kind c.response → (isAttestation c.response != att) = false := by
      intro c h
      simp [(hk _).mp h]
    cases h with
    | interrupted e hi =>
      rw [parseForm_interrupted hi]
      obtain ⟨_, _, _, _, h4⟩ := hi
      rw [← isException_iff] at h4
      simp [h4]
    | unreadable hi hr =>
      cases hp : parseForm app.env f with
      | error e =>
        rcases parseForm_error hp with h | h
        · exact absurd h (hi e)
        · simp [h]
      | ok p => exact absurd (readable_iff.mp hp) (hr _ _ _)
    | kind cid c name hr hn =>
      rw [readable_iff.mpr hr]
      have : (isAttestation c.response != att) = true := by
        simpa using fun h => hn ((hk _).mpr h)
      simp only [this, if_true]
    | challenge cid c name hr hkind hc =>
      rw [readable_iff.mpr hr]
      simp [kd hkind, none_ch.mpr hc]
    | user cid c name ch hr hkind hc hid hu =>
      rw [readable_iff.mpr hr]
      simp [kd hkind, hid, hdb.keyed.find_challenge hc, none_user.mpr hu]
    | late cid c ch u hr hkind hc hid hu ht =>
      rw [readable_iff.mpr hr]
      have : now - ch.timestamp > timeout := ht
      simp [kd hkind, hid, hdb.keyed.find_challenge hc, hdb.keyed.find_name hu, this]

end

theorem kind_registration (r : Response) : ForRegistration r ↔ isAttestation r = true := by
  cases r <;> simp [ForRegistration, isAttestation]

theorem kind_login (r : Response) : ForLogin r ↔ isAttestation r = false := by
  cases r <;> simp [ForLogin, isAttestation]

theorem told_iff {m : String} {x : Py Unit} {r : Reply} : conclude m x = r ↔ Told m x r := by
  constructor
  · rintro rfl
    cases x with
    | ok u => exact .success
    | error e =>
      simp only [conclude]
      split
      · exact .refused e (isWebAuthn_iff.mp ‹_›)
      · exact .crashed e (by rw [← isWebAuthn_iff]; assumption)
  · rintro (_ | ⟨e, h⟩ | ⟨e, h⟩)
    · rfl
    · simp [conclude, isWebAuthn_iff.mpr h]
    · rw [← isWebAuthn_iff] at h
      simp [conclude, h]

/-! ## The registrar -/

theorem register_error {r : AttestationRecord} {acd : AttestedCredentialData} {u : User} {k : CPK}
    {e : Exc} (hdb : Consistent db) (h1 : r.att.authData.attested = some acd) (h2 : u ∈ db.users)
    (h3 : r.user.id = u.handle) (h4 : acd.credentialPublicKey = some k)
    (h5 : KeyEncoded app.env k (.error e)) : registerAttestation app.env r db = (.error e, db) := by
  simp only [registerAttestation, h1, h3, hdb.keyed.find_handle h2, h4, C61_key_written.mpr h5]

theorem register_taken {r : AttestationRecord} {acd : AttestedCredentialData} {u : User} {k : CPK}
    {key : Bytes} {row : CredentialRow} (hdb : Consistent db)
    (h1 : r.att.authData.attested = some acd) (h2 : u ∈ db.users)
    (h3 : r.user.id = u.handle) (h4 : acd.credentialPublicKey = some k)
    (h5 : KeyEncoded app.env k (.ok key)) (h6 : row ∈ db.credentials)
    (h7 : row.id = r.credential.rawId) :
    registerAttestation app.env r db = (.error integrityError, db) := by
  simp only [registerAttestation, h1, h3, hdb.keyed.find_handle h2, h4, C61_key_written.mpr h5]
  rw [if_pos (List.any_eq_true.mpr ⟨row, h6, by simp [h7]⟩)]

theorem register_new {r : AttestationRecord} {acd : AttestedCredentialData} {u : User} {k : CPK}
    {key : Bytes} (hdb : Consistent db) (h1 : r.att.authData.attested = some acd) (h2 : u ∈ db.users)
    (h3 : r.user.id = u.handle) (h4 : acd.credentialPublicKey = some k)
    (h5 : KeyEncoded app.env k (.ok key)) (h6 : ∀ row ∈ db.credentials, row.id ≠ r.credential.rawId) :
    registerAttestation app.env r db = (.ok none,
      { db with credentials := db.credentials ++ [⟨r.credential.rawId, none, key, u.id⟩] }) := by
  simp only [registerAttestation, h1, h3, hdb.keyed.find_handle h2, h4, C61_key_written.mpr h5]
  rw [if_neg]
  simpa using h6

theorem data_unknown {id : Bytes} (h : ∀ row ∈ db.credentials, row.id ≠ id) :
    credentialData app.env id db = .ok none := by
  have : db.credential id = none := by
    simpa [Db.credential, List.find?_eq_none] using h
  simp only [credentialData, this]

theorem data_error (hdb : Consistent db) {row : CredentialRow} {e : Exc} (h : row ∈ db.credentials)
    (hk : KeyBytesRefused app.env row.key e) : credentialData app.env row.id db = .error e := by
  simp only [credentialData, hdb.keyed.find_credential h, parseCoseKeyBytes_error_iff.mpr hk,
    error_bind]

theorem data_stored (hdb : Consistent db) {row : CredentialRow} {cd : CredentialData}
    (h : row ∈ db.credentials) (hs : StoredAs app db row cd) :
    credentialData app.env row.id db = .ok (some cd) := by
  obtain ⟨d, rest, v, h1, h2, h3, h4, h5, h6, h7⟩ := hs
  obtain ⟨k, count, user, rp⟩ := cd
  cases h5
  cases h6
  cases h7
  simp only [credentialData, hdb.keyed.find_credential h, C28_cose_key_bytes.mpr ⟨d, rest, h1, h2⟩,
    ok_bind, ← h4, hdb.keyed.find_id h3]
  rfl

/-- What the registrar reads of a credential. -/
theorem data_cases (hdb : Consistent db) (id : Bytes) :
    (∀ row ∈ db.credentials, row.id ≠ id) ∨ ∃ row ∈ db.credentials, row.id = id ∧
      ((∃ e, KeyBytesRefused app.env row.key e) ∨ ∃ cd, StoredAs app db row cd) := by
  by_cases h : ∃ row ∈ db.credentials, row.id = id
  · obtain ⟨row, h1, h2⟩ := h
    refine Or.inr ⟨row, h1, h2, ?_⟩
    cases hk : parseCoseKeyBytes app.env row.key with
    | error e => exact Or.inl ⟨e, parseCoseKeyBytes_error_iff.mp hk⟩
    | ok k =>
      obtain ⟨d, rest, h3, h4⟩ := C28_cose_key_bytes.mp hk
      obtain ⟨v, hv, hid⟩ := hdb.owner row h1
      exact Or.inr ⟨⟨k, row.count, entityOf v, none⟩, d, rest, v, h3, h4, hv, hid, rfl, rfl, rfl⟩
  · refine Or.inl fun row h1 h2 => h ⟨row, h1, h2⟩

theorem attested_has_key {env : Env} {ob raw : Bytes} {o : AttestationObject}
    {acd : AttestedCredentialData} (h : AttObjOf env ob o raw)
    (ha : o.authData.attested = some acd) : ∃ k, acd.credentialPublicKey = some k := by
  obtain ⟨_, _, _, -, -, ⟨flags, count, body, mid, -, -, -, -, -, hb, -⟩, -⟩ := h
  rw [ha] at hb
  obtain ⟨-, _, _, d, k', -, -, -, -, -, -, hk', -⟩ := hb
  exact ⟨k', hk'⟩

theorem attests_of {c : Credential} {ch : Challenge} {u : User} {o : AttestationObject} {raw : Bytes}
    (h : AttestationOk app.env (RegistrationCall c ch u) o raw) (hs : o.attStmt = .none) :
    ∃ acd k, o.authData.attested = some acd ∧ acd.credentialPublicKey = some k ∧
      Attests app c ch u k := by
  obtain ⟨cdj, ob, -, -, h1, -, h2⟩ := id h
  obtain ⟨acd, hacd⟩ := Option.ne_none_iff_exists'.mp h2
  obtain ⟨k, hk⟩ := attested_has_key h1 hacd
  exact ⟨acd, k, hacd, hk, o, raw, acd, h, hs, hacd, hk⟩

/-! ## Registration responses -/

theorem registration_outcome (hdb : Consistent db) {f : Form} {now : Int} {r : Reply} {db' : Db} :
    registrationResponse app f now db = (r, db') ↔
      Outcome app db (.registrationResponse f now) r db' := by
  have key : ∀ {c ch u r db'}, readResponse app true f now db = .ok (c, ch, u) →
      (registrationResponse app f now db = (r, db') ↔ ∃ x,
        RegistrationOutcome app.env (registrar app.env) (RegistrationCall c ch u) db x db' ∧
        Told "Could not handle credential attestation" x r) := by
    intro c ch u r db' h
    simp only [registrationResponse, h, ← attestation_outcome, ← told_iff]
    constructor
    · intro h
      cases h
      exact ⟨_, rfl, rfl⟩
    · rintro ⟨x, h1, rfl⟩
      have h1 : handleAttestation app.env (registrar app.env) (attestationArgs c ch u) db = _ := h1
      rw [h1]
  constructor
  · intro h
    cases hr : readResponse app true f now db with
    | error r' =>
      simp only [registrationResponse, hr] at h
      cases h
      exact .registrationUnread f now _ ((unread_iff kind_registration hdb).mp hr)
    | ok p =>
      obtain ⟨c, ch, u⟩ := p
      have hread := (read_iff kind_registration hdb).mp hr
      obtain ⟨x, hx, ht⟩ := (key hr).mp h
      cases hx with
      | refused x y h1 h2 => exact .registrationRefused f now c ch u x y r hread h1 h2 ht
      | written o raw w _ x _ h1 h2 h3 h4 =>
        have h3 : registerAttestation app.env _ db = _ := h3
        obtain ⟨acd, k, h5, h6, h7⟩ := attests_of h1 h2
        cases hk : coseKey app.env k with
        | error e =>
          have hk := C61_key_written.mp hk
          rw [register_error hdb h5 hread.user rfl h6 hk] at h3
          cases h3
          exact .registrationNoKey f now c ch u k e _ r hread h7 hk h4 ht
        | ok b =>
          have hk := C61_key_written.mp hk
          by_cases hrow : ∃ row ∈ db.credentials, row.id = c.rawId
          · obtain ⟨row, h8, h9⟩ := hrow
            rw [register_taken hdb h5 hread.user rfl h6 hk h8 h9] at h3
            cases h3
            cases h4 with
            | raised _ _ =>
              cases ht with
              | refused _ _ => exact .registrationTaken f now c ch u k b row hread h7 hk h8 h9
              | crashed _ hn => exact absurd (by simp [IsInstance, classesOf]) hn
            | passes _ hn => exact absurd (by simp [IsInstance, classesOf, integrityError]) hn
          · have hrow : ∀ row ∈ db.credentials, row.id ≠ c.rawId := fun row h1 h2 => hrow ⟨row, h1, h2⟩
            rw [register_new hdb h5 hread.user rfl h6 hk hrow] at h3
            cases h3
            cases h4
            cases ht
            exact .registered f now c ch u k b hread h7 hk hrow
  · intro h
    cases h with
    | registrationUnread _ _ _ h =>
      simp only [registrationResponse, (unread_iff kind_registration hdb).mpr h]
    | registrationRefused _ _ c ch u x y _ hread h1 h2 ht =>
      exact (key ((read_iff kind_registration hdb).mpr hread)).mpr ⟨_, .refused x y h1 h2, ht⟩
    | registrationNoKey _ _ c ch u k e x _ hread hat hk hw ht =>
      obtain ⟨o, raw, acd, h1, h2, h3, h4⟩ := hat
      exact (key ((read_iff kind_registration hdb).mpr hread)).mpr ⟨_, .written o raw _ db x
        (expected_app _) h1 h2 (register_error hdb h3 hread.user rfl h4 hk) hw, ht⟩
    | registrationTaken _ _ c ch u k b row hread hat hk hr1 hr2 =>
      obtain ⟨o, raw, acd, h1, h2, h3, h4⟩ := hat
      exact (key ((read_iff kind_registration hdb).mpr hread)).mpr ⟨_, .written o raw _ db _
        (expected_app _) h1 h2 (register_taken hdb h3 hread.user rfl h4 hk hr1 hr2)
        (.raised _ (by simp [IsInstance, classesOf, integrityError])),
        .refused _ (by simp [IsInstance, classesOf])⟩
    | registered _ _ c ch u k b hread hat hk hr =>
      obtain ⟨o, raw, acd, h1, h2, h3, h4⟩ := hat
      exact (key ((read_iff kind_registration hdb).mpr hread)).mpr ⟨_, .written o raw _ _ _
        (expected_app _) h1 h2 (register_new hdb h3 hread.user rfl h4 hk hr) .done, .success⟩

/-! ## Authentication responses -/

theorem expectedRefused_app {env : Env} {x : Exc} : ¬ ExpectedRefused env (.one origin) x := by
  intro h
  have := (expected_app env)
  cases h with
  | empty h => cases h
  | bad pre s post x h1 h2 h3 =>
    obtain ⟨o, ho⟩ := this.2 s (h1 ▸ by simp)
    cases h3 with
    | notOrigin _ h => exact h o ho
    | raises h =>
      have h4 := parseOrigin_ok_iff.mpr ho
      rw [parseOrigin_valueError_iff.mpr h] at h4
      cases h4

theorem setCount_eq (id : Bytes) (n : Int) :
    setCount id n = fun a => if a.id = id then { a with count := some n } else a := by
  funext a
  simp [setCount]

theorem assertion_written (hdb : Consistent db) {r : AssertionRecord} {row : CredentialRow}
    (h : row ∈ db.credentials) (hid : row.id = r.credential.rawId) :
    registerAssertion r db = (.ok none, { db with credentials := db.credentials.map fun a =>
      if a.id = r.credential.rawId then { a with count := some r.authData.signCount } else a }) := by
  simp only [registerAssertion, ← hid, hdb.keyed.find_credential h, setCount_eq]

theorem login_outcome (hdb : Consistent db) {f : Form} {now : Int} {r : Reply} {db' : Db} :
    authenticationResponse app f now db = (r, db') ↔
      Outcome app db (.authenticationResponse f now) r db' := by
  have key : ∀ {c ch u r db'}, readResponse app false f now db = .ok (c, ch, u) →
      (authenticationResponse app f now db = (r, db') ↔ ∃ x,
        AuthenticationOutcome app.env (registrar app.env) (LoginCall c ch u) db x db' ∧
        Told "Could not handle credential assertion" x r) := by
    intro c ch u r db' h
    simp only [authenticationResponse, h, ← assertion_outcome, ← told_iff]
    constructor
    · intro h
      cases h
      exact ⟨_, rfl, rfl⟩
    · rintro ⟨x, h1, rfl⟩
      have h1 : handleAssertion app.env (registrar app.env) (assertionArgs c ch u) db = _ := h1
      rw [h1]
  have get : ∀ {id d}, credentialData app.env id db = d →
      (registrar app.env).getCredentialData id db = (d, db) := by
    rintro id d rfl
    rfl
  have stored : ∀ {id cd s1},
      (registrar app.env).getCredentialData id db = (.ok (some cd), s1) →
      db = s1 ∧ ∃ row ∈ db.credentials, row.id = id ∧ StoredAs app db row cd := by
    intro id cd s1 h
    have h1 : credentialData app.env id db = .ok (some cd) := congrArg Prod.fst h
    refine ⟨congrArg Prod.snd h, ?_⟩
    rcases data_cases (app := app) hdb id with hn | ⟨row, h5, h6, ⟨e, h7⟩ | ⟨cd', h7⟩⟩
    · rw [data_unknown hn] at h1
      cases h1
    · rw [← h6, data_error hdb h5 h7] at h1
      cases h1
    · rw [← h6, data_stored hdb h5 h7] at h1
      cases h1
      exact ⟨row, h5, h6, h7⟩
  constructor
  · intro h
    cases hr : readResponse app false f now db with
    | error r' =>
      simp only [authenticationResponse, hr] at h
      cases h
      exact .loginUnread f now _ ((unread_iff kind_login hdb).mp hr)
    | ok p =>
      obtain ⟨c, ch, u⟩ := p
      have hread := (read_iff kind_login hdb).mp hr
      obtain ⟨x, hx, ht⟩ := (key hr).mp h
      cases hx with
      | early x y h1 h2 =>
        exfalso
        cases h1 with
        | expected _ h => exact expectedRefused_app h
        | notAllowed _ h => exact h fun l hl => nomatch hl
      | notFound d s1 x h1 h2 h3 h4 =>
        cases h3
        rcases data_cases (app := app) hdb c.rawId with hn | ⟨row, h5, h6, ⟨e, h7⟩ | ⟨cd, h7⟩⟩
        · have : credentialData app.env c.rawId db = _ := data_unknown hn
          have h4 : NotFound (credentialData app.env c.rawId db) x := h4
          rw [this] at h4
          cases h4
          cases ht with
          | refused _ _ => exact .loginUnknown f now c ch u hread hn
          | crashed _ hn => exact absurd (by simp [IsInstance, classesOf]) hn
        · have : credentialData app.env c.rawId db = _ := h6 ▸ data_error hdb h5 h7
          have h4 : NotFound (credentialData app.env c.rawId db) x := h4
          rw [this] at h4
          exact .loginNoKey f now c ch u row e x r hread h5 h6 h7 h4 ht
        · have : credentialData app.env c.rawId db = _ := h6 ▸ data_stored hdb h5 h7
          have h4 : NotFound (credentialData app.env c.rawId db) x := h4
          rw [this] at h4
          cases h4
      | refused cd s1 x y h1 h2 h3 h4 h5 =>
        obtain ⟨rfl, row, h6, h7, h8⟩ := stored h3
        exact .loginRefused f now c ch u row cd x y r hread h6 h7 h8 h4 h5 ht
      | written cd s1 _ user rp ad w x h1 h2 h3 h4 h5 h6 =>
        obtain ⟨rfl, row, h7, h8, h9⟩ := stored h3
        have h5 : registerAssertion _ db = _ := h5
        rw [assertion_written hdb h7 h8] at h5
        cases h5
        cases h6
        cases ht
        exact .loggedIn f now c ch u row cd user rp ad hread h7 h8 h9 h4
  · intro h
    cases h with
    | loginUnread _ _ _ h =>
      simp only [authenticationResponse, (unread_iff kind_login hdb).mpr h]
    | loginUnknown _ _ c ch u hread hn =>
      exact (key ((read_iff kind_login hdb).mpr hread)).mpr ⟨_, .notFound _ db _ (expected_app _)
        (fun _ h => nomatch h) (get (data_unknown hn)) .unknown,
        .refused _ (by simp [IsInstance, classesOf])⟩
    | loginNoKey _ _ c ch u row e x _ hread h1 h2 h3 h4 ht =>
      exact (key ((read_iff kind_login hdb).mpr hread)).mpr ⟨_, .notFound _ db _ (expected_app _)
        (fun _ h => nomatch h) (get (h2 ▸ data_error hdb h1 h3)) h4, ht⟩
    | loginRefused _ _ c ch u row cd x y _ hread h1 h2 h3 h4 h5 ht =>
      exact (key ((read_iff kind_login hdb).mpr hread)).mpr ⟨_, .refused cd db x y (expected_app _)
        (fun _ h => nomatch h) (get (h2 ▸ data_stored hdb h1 h3)) h4 h5, ht⟩
    | loggedIn _ _ c ch u row cd user rp ad hread h1 h2 h3 h4 =>
      exact (key ((read_iff kind_login hdb).mpr hread)).mpr ⟨_, .written cd db _ user rp ad _ _
        (expected_app _) (fun _ h => nomatch h) (get (h2 ▸ data_stored hdb h1 h3)) h4
        (assertion_written hdb h1 h2) .done, .success⟩

/-! ## Requests for options -/

theorem userNamed_none {name : String} (h : ∀ u ∈ db.users, u.username ≠ name) :
    db.userNamed name = none := by
  simpa [Db.userNamed, List.find?_eq_none] using h

theorem handle_taken {name : String} {h : Bytes} {v : User}
    (h1 : ∀ u ∈ db.users, u.username ≠ name) (h2 : v ∈ db.users) (h3 : v.handle = h) :
    findOrAddUser db name h = (.error integrityError, db) := by
  simp only [findOrAddUser, userNamed_none h1, Db.addUser]
  rw [if_pos (List.any_eq_true.mpr ⟨v, h2, by simp [h3]⟩)]

theorem user_for (hdb : Consistent db) {name : String} {h : Bytes} {u : User} {users : List User}
    (hu : UserFor db name h u users) :
    findOrAddUser db name h = (.ok u, ⟨users, db.credentials, db.challenges⟩) := by
  cases hu with
  | known _ h1 h2 =>
    subst h2
    simp only [findOrAddUser, hdb.keyed.find_name h1]
  | new h1 =>
    simp only [findOrAddUser, userNamed_none fun u hu => (h1 u hu).1, Db.addUser]
    rw [if_neg]
    simpa [not_or] using h1

theorem addChallenge_taken {ch : Bytes} {t : Int} {n : Nat} {c : Challenge} (h1 : c ∈ db.challenges)
    (h2 : c.request = ch) : db.addChallenge ch t n = (.error integrityError, db) := by
  simp only [Db.addChallenge]
  rw [if_pos (List.any_eq_true.mpr ⟨c, h1, by simp [h2]⟩)]

theorem addChallenge_new {ch : Bytes} {t : Int} {n : Nat} (h : ∀ c ∈ db.challenges, c.request ≠ ch) :
    db.addChallenge ch t n = (.ok (db.challenges.length + 1),
      { db with challenges := db.challenges ++ [⟨db.challenges.length + 1, ch, t, n⟩] }) := by
  simp only [Db.addChallenge]
  rw [if_neg]
  simpa using h

theorem registration_cases (name : String) (h : Bytes) :
    ((∀ u ∈ db.users, u.username ≠ name) ∧ ∃ v ∈ db.users, v.handle = h) ∨
      ∃ u users, UserFor db name h u users := by
  by_cases h1 : ∃ u ∈ db.users, u.username = name
  · obtain ⟨u, h1, h2⟩ := h1
    exact Or.inr ⟨u, _, .known u h1 h2⟩
  · have h1 : ∀ u ∈ db.users, u.username ≠ name := fun u hu h => h1 ⟨u, hu, h⟩
    by_cases h2 : ∃ v ∈ db.users, v.handle = h
    · exact Or.inl ⟨h1, h2⟩
    · exact Or.inr ⟨_, _, .new fun u hu => ⟨h1 u hu, fun h => h2 ⟨u, hu, h⟩⟩⟩

theorem challenge_cases (db : Db) (ch : Bytes) :
    (∃ c ∈ db.challenges, c.request = ch) ∨ ∀ c ∈ db.challenges, c.request ≠ ch := by
  by_cases h : ∃ c ∈ db.challenges, c.request = ch
  · exact Or.inl h
  · exact Or.inr fun c hc h' => h ⟨c, hc, h'⟩

theorem registrationRequest_issued (hdb : Consistent db) {name : String} {h ch : Bytes} {t : Int}
    {u : User} {users : List User} (hu : UserFor db name h u users)
    (hc : ∀ c ∈ db.challenges, c.request ≠ ch) :
    ∃ v, CreationReply name u.handle ch v ∧
      registrationRequest (some name) h ch t db =
        (.json (.dict [(.str "challengeID", .int (db.challenges.length + 1)),
          (.str "creationOptions", v)]),
        ⟨users, db.credentials, db.challenges ++ [⟨db.challenges.length + 1, ch, t, u.id⟩]⟩) := by
  obtain ⟨v, h1, h2⟩ := creation_reply (db.challenges.length + 1)
    { name := name, id := u.handle, displayName := name } ch
  refine ⟨v, h2, ?_⟩
  simp only [registrationRequest, user_for hdb hu]
  rw [addChallenge_new (db := ⟨users, db.credentials, db.challenges⟩) hc]
  dsimp only
  rw [h1]
  rfl

theorem authenticationRequest_issued (hdb : Consistent db) {ch : Bytes} {t : Int} {u : User}
    (hu : u ∈ db.users) (hc : ∀ c ∈ db.challenges, c.request ≠ ch) :
    ∃ v, RequestReply ((db.credentials.filter fun c => c.userId == u.id).map CredentialRow.id) ch v ∧
      authenticationRequest (some u.username) ch t db =
        (.json (.dict [(.str "challengeID", .int (db.challenges.length + 1)),
          (.str "requestOptions", v)]),
        { db with challenges := db.challenges ++ [⟨db.challenges.length + 1, ch, t, u.id⟩] }) := by
  obtain ⟨v, h1, h2⟩ := request_reply (db.challenges.length + 1)
    (db.credentials.filter fun c => c.userId == u.id) ch
  refine ⟨v, ?_, ?_⟩
  · simp only [RequestReply, List.map_map]
    exact h2
  simp only [authenticationRequest, hdb.keyed.find_name hu]
  rw [addChallenge_new hc]
  dsimp only
  rw [h1]
  rfl

/-- The rows that a sublist holds determine it. -/
theorem rows_unique {l rows : List CredentialRow} {n : Nat}
    (hl : l.Pairwise fun a b => a.id ≠ b.id) (hs : rows.Sublist l)
    (hr : ∀ r ∈ l, r ∈ rows ↔ r.userId = n) : rows = l.filter fun c => c.userId == n := by
  induction hs with
  | slnil => rfl
  | cons a hs ih =>
    rw [List.pairwise_cons] at hl
    rename_i l1 l2
    have ha : a ∉ l1 := fun h => (hl.1 a (hs.subset h)) rfl
    rw [hr a (List.mem_cons_self ..)] at ha
    rw [List.filter_cons_of_neg (by simpa using ha)]
    exact ih hl.2 fun r hr' => hr r (List.mem_cons_of_mem _ hr')
  | cons_cons a hs ih =>
    rw [List.pairwise_cons] at hl
    rename_i l1 l2
    have ha := (hr a (List.mem_cons_self ..)).mp (List.mem_cons_self ..)
    rw [List.filter_cons_of_pos (by simpa using ha)]
    congr 1
    refine ih hl.2 fun r hr' => ?_
    rw [← hr r (List.mem_cons_of_mem _ hr'), List.mem_cons]
    constructor
    · exact Or.inr
    · rintro (rfl | h)
      · exact absurd rfl (hl.1 _ hr')
      · exact h

/-! ## C64 -/

/-- C64: the reply to a request and the tables afterwards are an outcome of the
specification. -/
theorem C64_outcome (app : App) {db : Db} (hdb : Consistent db) (e : Event) :
    Outcome app db e (step app e db).1 (step app e db).2 := by
  cases e with
  | registrationRequest name h ch t =>
    cases name with
    | none => exact .registrationNoName h ch t
    | some name =>
      rcases registration_cases (db := db) name h with ⟨h1, v, h2, h3⟩ | ⟨u, users, hu⟩
      · have : step app (.registrationRequest (some name) h ch t) db = (.crash integrityError, db) := by
          simp only [step, registrationRequest, handle_taken h1 h2 h3]
        rw [this]
        exact .handleTaken name h ch t v h1 h2 h3
      rcases challenge_cases db ch with ⟨c, h1, h2⟩ | hc
      · have : step app (.registrationRequest (some name) h ch t) db =
            (.crash integrityError, ⟨users, db.credentials, db.challenges⟩) := by
          simp only [step, registrationRequest, user_for hdb hu]
          rw [addChallenge_taken (db := ⟨users, db.credentials, db.challenges⟩) h1 h2]
        rw [this]
        exact .registrationChallengeTaken name h ch t u users c hu h1 h2
      · obtain ⟨v, h1, h2⟩ := registrationRequest_issued hdb (t := t) hu hc
        simp only [step, h2]
        exact .registrationIssued name h ch t u users v hu hc h1
  | authenticationRequest name ch t =>
    cases name with
    | none => exact .loginNoName ch t
    | some name =>
      by_cases hu : ∃ u ∈ db.users, u.username = name
      · obtain ⟨u, hu, rfl⟩ := hu
        rcases challenge_cases db ch with ⟨c, h1, h2⟩ | hc
        · have : step app (.authenticationRequest (some u.username) ch t) db =
              (.crash integrityError, db) := by
            simp only [step, authenticationRequest, hdb.keyed.find_name hu, addChallenge_taken h1 h2]
          rw [this]
          exact .loginChallengeTaken u ch t c hu h1 h2
        · obtain ⟨v, h1, h2⟩ := authenticationRequest_issued hdb (t := t) hu hc
          simp only [step, h2]
          exact .loginIssued u ch t _ v hu hc List.filter_sublist (by simp +contextual) h1
      · have hu : ∀ u ∈ db.users, u.username ≠ name := fun u h h' => hu ⟨u, h, h'⟩
        have : step app (.authenticationRequest (some name) ch t) db =
            (.text "User not registered" 400, db) := by
          simp only [step, authenticationRequest, userNamed_none hu]
        rw [this]
        exact .loginNoUser name ch t hu
  | registrationResponse f t => exact (registration_outcome hdb).mp rfl
  | authenticationResponse f t => exact (login_outcome hdb).mp rfl

/-- C64: the specification allows no other outcome: the tables are determined, and the
reply up to the order of the members of the options. -/
theorem C64_only {app : App} {db db' : Db} (hdb : Consistent db) {e : Event} {r : Reply}
    (h : Outcome app db e r db') :
    SameReply r (step app e db).1 ∧ db' = (step app e db).2 := by
  cases e with
  | registrationRequest name h ch t =>
    cases h with
    | registrationNoName => exact ⟨Or.inl rfl, rfl⟩
    | handleTaken name _ _ _ v h1 h2 h3 =>
      simp only [step, registrationRequest, handle_taken h1 h2 h3]
      exact ⟨Or.inl rfl, trivial⟩
    | registrationChallengeTaken name _ _ _ u users c hu h1 h2 =>
      simp only [step, registrationRequest, user_for hdb hu]
      rw [addChallenge_taken (db := ⟨users, db.credentials, db.challenges⟩) h1 h2]
      exact ⟨Or.inl rfl, rfl⟩
    | registrationIssued name _ _ _ u users v hu hc hv =>
      obtain ⟨v', h1, h2⟩ := registrationRequest_issued hdb (t := t) hu hc
      simp only [step, h2]
      exact ⟨Or.inr (Or.inl ⟨_, _, _, _, v, v', rfl, rfl, hv, h1⟩), trivial⟩
  | authenticationRequest name ch t =>
    cases h with
    | loginNoName => exact ⟨Or.inl rfl, rfl⟩
    | loginNoUser name _ _ hu =>
      simp only [step, authenticationRequest, userNamed_none hu]
      exact ⟨Or.inl rfl, trivial⟩
    | loginChallengeTaken u _ _ c hu h1 h2 =>
      simp only [step, authenticationRequest, hdb.keyed.find_name hu, addChallenge_taken h1 h2]
      exact ⟨Or.inl rfl, trivial⟩
    | loginIssued u _ _ rows v hu hc h1 h2 hv =>
      obtain rfl := rows_unique hdb.keyed.credentialIds h1 h2
      obtain ⟨v', h1, h2⟩ := authenticationRequest_issued hdb (t := t) hu hc
      simp only [step, h2]
      exact ⟨Or.inr (Or.inr ⟨_, _, _, v, v', rfl, rfl, hv, h1⟩), trivial⟩
  | registrationResponse f t =>
    simp only [step, (registration_outcome hdb).mpr h]
    exact ⟨Or.inl rfl, trivial⟩
  | authenticationResponse f t =>
    simp only [step, (login_outcome hdb).mpr h]
    exact ⟨Or.inl rfl, trivial⟩

/-- C64: the tables are consistent, whatever the requests and the order of their
statements. -/
theorem C64_consistent {ι : Type} [DecidableEq ι] (app : App) (reqs : ι → Event) (sched : List ι) :
    Consistent (serveAll app reqs sched).db := by
  have h := server_inv app reqs sched
  refine ⟨h.keyed, fun c hc => ?_⟩
  obtain ⟨-, -, u, -, -, hu, hid, -⟩ := h.credentials c hc
  exact ⟨u, hu, hid⟩

/-- C63: requests that are served one after the other. -/
theorem C63_sequential (app : App) (reqs : Nat → Event) (n : Nat) :
    (serveAll app reqs ((List.range n).flatMap (List.replicate 6))).db =
      run app ((List.range n).map reqs) := by
  induction n with
  | zero => rfl
  | succ n ih =>
    rw [List.range_succ, List.flatMap_append, List.map_append, List.flatMap_singleton,
      (C63_uninterrupted (by simp)).2, ih]
    simp [run, List.foldl_append]

/-- C64: the tables are consistent after every history. -/
theorem C64_consistent_history (app : App) (evs : List Event) : Consistent (run app evs) := by
  have h := C64_consistent app (fun n => evs.getD n (.authenticationRequest none [] 0))
    ((List.range evs.length).flatMap (List.replicate 6))
  rw [C63_sequential] at h
  convert h
  apply List.ext_getElem (by simp)
  intro i h1 h2
  simp [List.getD, List.getElem?_eq_getElem h1]

/-- C64: so every reply of the application is one of the specification. -/
theorem C64_reply (app : App) (evs : List Event) (e : Event) :
    Outcome app (run app evs) e (reply app evs e) (run app (evs ++ [e])) := by
  have := C64_outcome app (C64_consistent_history app evs) e
  simpa [run, reply, List.foldl_append] using this

/-- C64: and an outcome of the specification that is no set of options is the reply. -/
theorem C64_reply_only {app : App} {evs : List Event} {e : Event} {r : Reply} {db' : Db}
    (h : Outcome app (run app evs) e r db') (hr : ∀ v, r ≠ .json v) :
    reply app evs e = r ∧ run app (evs ++ [e]) = db' := by
  obtain ⟨h1, h2⟩ := C64_only (C64_consistent_history app evs) h
  refine ⟨?_, ?_⟩
  · rcases h1 with h1 | ⟨_, _, _, _, _, _, h1, -⟩ | ⟨_, _, _, _, _, h1, -⟩
    · exact h1.symm
    · exact absurd h1 (hr _)
    · exact absurd h1 (hr _)
  · simp [h2, run, List.foldl_append]

end WebAuthn.Flask
