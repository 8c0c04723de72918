import Verif.Props.Needed
import Verif.Props.PhishingDemo
import Verif.Props.GuardsDemo

/-!
# No part of the contract can be left out (C99)
-/

namespace WebAuthn.Flask.Run.Needed

open Spec Props

/-! ## The database: Ada and Bob, with a challenge each; then Ada has a credential -/

def ada : User := ⟨1, "ada", handle1⟩
def bob : User := ⟨2, "bob", handle2⟩
def ch1 : Challenge := ⟨1, challenge1, 0, 1⟩
def ch2 : Challenge := ⟨2, challenge2, 1000, 2⟩
def db2 : Db := ⟨[ada, bob], [], [ch1, ch2]⟩
def db3 (n : Option Int) : Db := { db2 with credentials := [⟨Demo.credId, n, storedKey, 1⟩] }

abbrev reg : Registrar Db := registrar app.env

section
variable {pkg : Package} {evs : List Event} {db db' : Db} {c : Credential} {u : User} {name : String} {t : Int}
  {r : Py Unit}

local notation "rep" => packageReply (fun _ => pkg) app []
local notation "runs" => packageRun (fun _ => pkg) app []

theorem run2 : (runs [e1, e2]).2 = db2 := rfl

theorem step_registration {f : Form} {ch : Challenge} (hdb : (runs evs).2 = db)
    (hread : readResponse app true f t db = .ok (c, ch, u))
    (hh : pkg.attestation reg (attestationArgs c ch u) db = (r, db')) :
    rep evs (.registrationResponse f t) = conclude "Could not handle credential attestation" r ∧
      (runs (evs ++ [.registrationResponse f t])).2 = db' := by
  rw [← hdb] at hread hh
  have := packageStep_registration hread hh
  refine ⟨?_, ?_⟩
  · rw [reply_admitted (show Admitted (fun _ => pkg) app [] _ _ from rfl), this]
  · rw [packageRun_snoc, serve_admitted (show Admitted (fun _ => pkg) app [] _ _ from rfl), this]

theorem step_login {f : Form} {ch : Challenge} (hdb : (runs evs).2 = db)
    (hread : readResponse app false f t db = .ok (c, ch, u))
    (hh : pkg.assertion reg (assertionArgs c ch u) db = (r, db')) :
    rep evs (.authenticationResponse f t) = conclude "Could not handle credential assertion" r ∧
      (runs (evs ++ [.authenticationResponse f t])).2 = db' := by
  rw [← hdb] at hread hh
  have := packageStep_login hread hh
  refine ⟨?_, ?_⟩
  · rw [reply_admitted (show Admitted (fun _ => pkg) app [] _ _ from rfl), this]
  · rw [packageRun_snoc, serve_admitted (show Admitted (fun _ => pkg) app [] _ _ from rfl), this]

theorem read_registration (ht : t ≤ 60000) (hc : isAttestation c.response = true) :
    readResponse app true (formOf "1" c "ada") t db2 = .ok (c, ch1, ada) :=
  readResponse_ok_iff.mpr ⟨1, "ada", form1 _ _, hc, rfl, rfl, by simpa [ch1, timeout] using ht⟩

theorem read_login {n : Option Int} (hu : u ∈ [ada, bob]) (ht : t ≤ 60000) (hc : isAttestation c.response = false) :
    readResponse app false (formOf "1" c u.username) t (db3 n) = .ok (c, ch1, u) := by
  simp only [List.mem_cons, List.not_mem_nil, or_false] at hu
  rcases hu with rfl | rfl
  · exact readResponse_ok_iff.mpr ⟨1, "ada", form1 _ _, hc, rfl, rfl, by simpa [ch1, timeout] using ht⟩
  · exact readResponse_ok_iff.mpr ⟨1, "bob", form1 _ _, hc, rfl, rfl, by simpa [ch1, timeout] using ht⟩

end

/-! ## What the registrar does -/

theorem stores {r : AttestationRecord} (h1 : r.att = ⟨regAd, .NONE, .none⟩) (h2 : r.user = ada.entity)
    (h3 : r.credential.rawId = Demo.credId) : reg.registerAttestation r db2 = (.ok none, db3 none) := by
  show registerAttestation app.env r db2 = _
  simp only [registerAttestation, h1, h2, h3]
  rfl

theorem updates {r : AssertionRecord} {n : Option Int} (h : r.credential.rawId = Demo.credId) :
    reg.registerAssertion r (db3 n) = (.ok none, db3 (some r.authData.signCount)) := by
  show registerAssertion r (db3 n) = _
  simp only [registerAssertion, h]
  rfl

theorem key_read : parseCoseKeyBytes app.env storedKey = .ok Demo.key :=
  C27_stored_key Demo.codec ⟨_, parseCoseKeyDict_ok_iff.mpr Demo.keyMap_key⟩ storedKey_eq

def data (n : Option Int) : CredentialData := ⟨Demo.key, n, ada.entity, none⟩

theorem knows (n : Option Int) : reg.getCredentialData Demo.credId (db3 n) = (.ok (some (data n)), db3 n) := by
  show (credentialData app.env Demo.credId (db3 n), _) = _
  have : (db3 n).credential Demo.credId = some ⟨Demo.credId, n, storedKey, 1⟩ := rfl
  simp only [credentialData, this, key_read, ok_bind]
  rfl

/-! ## The package as it is -/

theorem code_registration {σ : Type} {r : Registrar σ} {s s' : σ}
    (h : r.registerAttestation ⟨regCredential challenge1, ⟨regAd, .NONE, .none⟩, .NONE, ada.entity, rp, none⟩ s =
      (.ok none, s')) :
    handleAttestation app.env r (attestationArgs (regCredential challenge1) ch1 ada) s = (.ok (), s') :=
  C52_honest_registration Demo.codec Demo.json rfl (clientData_text _ _) (C38_base64url_encoding _).1 attObj_enc
    regRaw_enc rfl (rpHash_enc regRaw_enc rfl) (Demo.flagSet_enc regRaw_enc (by decide)) (fun h => nomatch h)
    (fun _ h => nomatch h) (expected_app _) (originAllowed_of (expected_app _) (List.mem_singleton.mpr rfl)) .none h

theorem code_login {σ : Type} {r : Registrar σ} {s s1 s' : σ} {n : Option Int} {b : Bool}
    (hn : b = true ∨ n = none ∨ n = some 0)
    (h1 : r.getCredentialData Demo.credId s = (.ok (some (data n)), s1))
    (h2 : r.registerAssertion ⟨authCredential 1 challenge1, authAd 1, ada.entity, rp⟩ s1 = (.ok none, s')) :
    handleAssertion app.env r { assertionArgs (authCredential 1 challenge1) ch1 ada with ignoreCloneError := b } s =
      (.ok (), s') :=
  C52_honest_authentication Demo.codec Demo.json h1 (fun _ h => nomatch h) rfl (clientData_text _ _)
    (C38_base64url_encoding _).1 (.given _ _ rfl fun _ h => (Option.some.inj h).symm) (.arg _) (authRaw_enc 1)
    (rpHash_enc (authRaw_enc 1) rfl) (Demo.flagSet_enc (authRaw_enc 1) (by decide)) (fun h => nomatch h)
    (fun _ h => nomatch h) (signature_ok 1 challenge1) (by
      rintro m hm hb
      refine ⟨1, (authDataOf_head (encodedAuthData_of Demo.codec (authRaw_enc 1))).2.2.2, ?_⟩
      rcases hn with rfl | rfl | rfl
      · cases hb
      · cases hm
      · obtain rfl := Option.some.inj hm
        decide)
    (expected_app _) (originAllowed_of (expected_app _) (List.mem_singleton.mpr rfl)) .none h2

theorem code_login' {σ : Type} {r : Registrar σ} {s s1 s' : σ} {n : Option Int} (hn : n = none ∨ n = some 0)
    (h1 : r.getCredentialData Demo.credId s = (.ok (some (data n)), s1))
    (h2 : r.registerAssertion ⟨authCredential 1 challenge1, authAd 1, ada.entity, rp⟩ s1 = (.ok none, s')) :
    handleAssertion app.env r (assertionArgs (authCredential 1 challenge1) ch1 ada) s = (.ok (), s') :=
  code_login (b := false) (Or.inr hn) h1 h2

theorem updates1 (n : Option Int) :
    reg.registerAssertion ⟨authCredential 1 challenge1, authAd 1, ada.entity, rp⟩ (db3 n) = (.ok none, db3 (some 1)) :=
  updates rfl

section
variable {env : Env} {σ : Type} {r : Registrar σ} {a : AssertionArgs} {b : AttestationArgs} {s : σ}

theorem cloning_eq : (cloning env).assertion r a s = handleAssertion env r { a with ignoreCloneError := true } s := rfl
theorem forgetting_eq : (forgetting env).assertion r a s = handleAssertion env (forgetful r) a s := rfl
theorem numbing_eq : (numbing env).assertion r a s = handleAssertion env (zeroing r) a s := rfl
theorem skipping_eq : (skipping env).assertion r a s = handleAssertion env (untold r) a s := rfl
theorem ignoring_eq : (ignoring env).attestation r b s = handleAttestation env (unasked r) b s := rfl
theorem code_refuses (law : JsonRefusesMark env) {s' : σ} {e : Exc} (h : handleAssertion env r a s = (.error e, s')) :
    s' = s ∨ s' = (r.getCredentialData a.credential.rawId s).2 ∨
      ∃ record w, r.registerAssertion record (r.getCredentialData a.credential.rawId s).2 = (w, s') ∧ w ≠ .ok none :=
  (C96_code law).logsInNot r a s s' e h
theorem resetting_eq : (resetting env).attestation r b s = handleAttestation env r b s := rfl

end

/-! ## Counters -/

section
variable {pkg : Package} {evs : List Event}

local notation "rep" => packageReply (fun _ => pkg) app []
local notation "runs" => packageRun (fun _ => pkg) app []

theorem registered3
    (h : ∀ {s'}, reg.registerAttestation ⟨regCredential challenge1, ⟨regAd, .NONE, .none⟩, .NONE, ada.entity, rp, none⟩ db2 =
      (.ok none, s') → pkg.attestation reg (attestationArgs (regCredential challenge1) ch1 ada) db2 = (.ok (), s')) :
    rep [e1, e2] e3 = success ∧ (runs [e1, e2, e3]).2 = db3 none :=
  step_registration run2 (read_registration (by decide) rfl) (h (stores rfl rfl rfl))

theorem registered_code (h : ∀ a s, pkg.attestation reg a s = handleAttestation app.env reg a s) :
    rep [e1, e2] e3 = success ∧ (runs [e1, e2, e3]).2 = db3 none :=
  registered3 fun h' => by rw [h]; exact code_registration h'

theorem registers_of (h : rep [e1, e2] e3 = success) : RegistersBy rep app [e1, e2] e3 Demo.credId "ada" Demo.key := by
  obtain ⟨_, _, _, _, cdj, ob, o, raw, acd, h1, -, h3, h4, h5, h6, h7, h8⟩ := registers3
  exact ⟨_, _, _, _, cdj, ob, o, raw, acd, h1, h, h3, h4, h5, h6, h7, h8⟩

/-- The same response is accepted twice. -/
theorem twice (h : rep [e1, e2, e3] e4 = success) (ho : Occurs evs [e1, e2, e3] e4) (h' : rep evs e4 = success) :
    ¬ Upheld rep app := fun u =>
  absurd (u.increasing evs _ _ _ Demo.credId 1 1 ho
    ⟨_, _, _, _, _, rfl, h, form1 _ _, rfl, counter_of 1 challenge1⟩
    ⟨_, _, _, _, _, rfl, h', form1 _ _, rfl, counter_of 1 challenge1⟩) (by unfold Above; decide)

theorem login4_any {n : Option Int} {r : Py Unit} {db : Db} (hdb : (runs evs).2 = db3 n)
    (hh : pkg.assertion reg (assertionArgs (authCredential 1 challenge1) ch1 ada) (db3 n) = (r, db)) :
    rep evs e4 = conclude "Could not handle credential assertion" r ∧ (runs (evs ++ [e4])).2 = db :=
  step_login hdb (read_login (u := ada) (by simp) (by decide) rfl) hh

theorem login4 {n n' : Option Int} (hdb : (runs evs).2 = db3 n)
    (hh : pkg.assertion reg (assertionArgs (authCredential 1 challenge1) ch1 ada) (db3 n) = (.ok (), db3 n')) :
    rep evs e4 = success ∧ (runs (evs ++ [e4])).2 = db3 n' :=
  login4_any hdb hh

end

theorem C99_counter : ¬ Suffices (· ≠ .counter) := by
  intro h
  have hh : ∀ n, (cloning app.env).assertion reg (assertionArgs (authCredential 1 challenge1) ch1 ada) (db3 n) =
      (.ok (), db3 (some 1)) := by
    intro n
    rw [cloning_eq]
    exact code_login (Or.inl rfl) (knows n) (updates1 n)
  have h3 := (registered_code (pkg := cloning app.env) fun _ _ => rfl).2
  have h4 := login4 h3 (hh none)
  have h5 := login4 h4.2 (hh (some 1))
  exact twice h4.1 ⟨[], rfl⟩ h5.1
    (h app _ Demo.codec Demo.json Demo.refuses_mark (keeps_cloning Demo.refuses_mark))

theorem C99_known : ¬ Suffices (· ≠ .known) := by
  intro h
  have hk : ∀ n, (forgetful reg).getCredentialData Demo.credId (db3 n) = (.ok (some (data none)), db3 n) := by
    intro n
    simp only [forgetful, knows]
    rfl
  have hh : ∀ n, (forgetting app.env).assertion reg (assertionArgs (authCredential 1 challenge1) ch1 ada) (db3 n) =
      (.ok (), db3 (some 1)) := by
    intro n
    rw [forgetting_eq]
    exact code_login' (Or.inl rfl) (hk n) (updates1 n)
  have h3 := (registered_code (pkg := forgetting app.env) fun _ _ => rfl).2
  have h4 := login4 h3 (hh none)
  have h5 := login4 h4.2 (hh (some 1))
  exact twice h4.1 ⟨[], rfl⟩ h5.1
    (h app _ Demo.codec Demo.json Demo.refuses_mark (keeps_forgetting Demo.refuses_mark))

theorem C99_authData : ¬ Suffices (· ≠ .authData) := by
  intro h
  have hu : ∀ n, (zeroing reg).registerAssertion ⟨authCredential 1 challenge1, authAd 1, ada.entity, rp⟩ (db3 n) =
      (.ok none, db3 (some 0)) := by
    intro n
    simp only [zeroing]
    exact updates rfl
  have hh : ∀ n, n = none ∨ n = some 0 →
      (numbing app.env).assertion reg (assertionArgs (authCredential 1 challenge1) ch1 ada) (db3 n) =
        (.ok (), db3 (some 0)) := by
    intro n hn
    rw [numbing_eq]
    exact code_login' hn (knows n) (hu n)
  have h3 := (registered_code (pkg := numbing app.env) fun _ _ => rfl).2
  have h4 := login4 h3 (hh none (Or.inl rfl))
  have h5 := login4 h4.2 (hh (some 0) (Or.inr rfl))
  exact twice h4.1 ⟨[], rfl⟩ h5.1
    (h app _ Demo.codec Demo.json Demo.refuses_mark (keeps_numbing Demo.refuses_mark))

theorem C99_updated : ¬ Suffices (· ≠ .updated) := by
  intro h
  have hh : (skipping app.env).assertion reg (assertionArgs (authCredential 1 challenge1) ch1 ada) (db3 none) =
      (.ok (), db3 none) := by
    rw [skipping_eq]
    exact code_login' (Or.inl rfl) (knows none) rfl
  have h3 := (registered_code (pkg := skipping app.env) fun _ _ => rfl).2
  have h4 := login4 h3 hh
  have h5 := login4 h4.2 hh
  exact twice h4.1 ⟨[], rfl⟩ h5.1
    (h app _ Demo.codec Demo.json Demo.refuses_mark (keeps_skipping Demo.refuses_mark))

theorem C99_notUpdated : ¬ Suffices (· ≠ .notUpdated) := by
  intro h
  have hok : ∀ n, n = none ∨ n = some 0 →
      (resetting app.env).assertion reg (assertionArgs (authCredential 1 challenge1) ch1 ada) (db3 n) =
        (.ok (), db3 (some 1)) := by
    intro n hn
    simp only [resetting, code_login' (r := reg) hn (knows n) (updates1 n)]
  have h3 := (registered_code (pkg := resetting app.env) fun _ _ => rfl).2
  have h4 := login4 h3 (hok none (Or.inl rfl))
  have hup := h app _ Demo.codec Demo.json Demo.refuses_mark (keeps_resetting Demo.refuses_mark)
  -- the response again: if it is refused, the counter is set back
  cases hr : handleAssertion app.env reg (assertionArgs (authCredential 1 challenge1) ch1 ada) (db3 (some 1)) with
  | mk r db =>
    cases r with
    | ok v =>
      have h5 := login4_any h4.2 (r := .ok ()) (db := db) (by
        simp only [resetting, hr])
      exact twice h4.1 ⟨[], rfl⟩ h5.1 hup
    | error e =>
      have hdb : db = db3 (some 1) := by
        rcases code_refuses Demo.refuses_mark hr with h | h | ⟨record, w, h1, h2⟩
        · exact h
        · rw [h]
          exact congrArg Prod.snd (knows _)
        · rw [show (reg.getCredentialData _ (db3 (some 1))).2 = db3 (some 1) from rfl] at h1
          change registerAssertion record _ = _ at h1
          simp only [registerAssertion] at h1
          split at h1
          · exact (Prod.mk.inj h1).2.symm
          · exact absurd (Prod.mk.inj h1).1.symm h2
      subst hdb
      have h5 := login4_any h4.2 (r := .error e) (db := db3 (some 0)) (by
        simp only [resetting, hr]
        exact congrArg (Prod.mk _) (congrArg Prod.snd (updates rfl)))
      have h6 := login4 h5.2 (hok (some 0) (Or.inr rfl))
      exact twice h4.1 ⟨[e4], rfl⟩ h6.1 hup

/-! ## Registrations that are not what they seem -/

theorem occurs2 {pre : List Event} {e : Event} (h : Occurs [e1, e2, x] pre e) :
    (pre = [] ∧ e = e1) ∨ (pre = [e1] ∧ e = e2) ∨ (pre = [e1, e2] ∧ e = x) := by
  rcases occurs_snoc_cases (evs := [e1, e2]) h with h | h
  · rcases occurs_snoc_cases (evs := [e1]) h with h | h
    · rcases occurs_snoc_cases (evs := []) h with ⟨post, h⟩ | h
      · simp at h
      · exact Or.inl ⟨h.1.symm, h.2.symm⟩
    · exact Or.inr (Or.inl ⟨h.1.symm, h.2.symm⟩)
  · exact Or.inr (Or.inr ⟨h.1.symm, h.2.symm⟩)

theorem C99_stored : ¬ Suffices (· ≠ .stored) := by
  intro h
  have hh : (ignoring app.env).attestation reg (attestationArgs (regCredential challenge1) ch1 ada) db2 = (.ok (), db2) := by
    rw [ignoring_eq]
    exact code_registration rfl
  have h3 := step_registration run2 (read_registration (t := 5000) (by decide) rfl) hh
  have h4 := step_registration h3.2 (read_registration (t := 5000) (by decide) rfl) hh
  have := (h app _ Demo.codec Demo.json Demo.refuses_mark (keeps_ignoring Demo.refuses_mark)).once
    [e1, e2, e3, e3] [e1, e2] [e1, e2, e3] e3 e3 Demo.credId "ada" "ada" Demo.key Demo.key ⟨[e3], rfl⟩ (registers_of h3.1)
    ⟨[], rfl⟩ (by
      obtain ⟨_, _, _, _, cdj, ob, o, raw, acd, h1, -, h3, h4', h5, h6, h7, h8⟩ := registers3
      exact ⟨_, _, _, _, cdj, ob, o, raw, acd, h1, h4.1, h3, h4', h5, h6, h7, h8⟩)
  simp at this

theorem denying_eq {env : Env} {σ : Type} {r : Registrar σ} {a : AttestationArgs} {s : σ} :
    (denying env).attestation r a s = (.error (.lib .registration), (handleAttestation env r a s).2) := rfl

theorem code_login_eq {env : Env} {σ : Type} {r : Registrar σ} {a : AssertionArgs} {s : σ} :
    (denying env).assertion r a s = handleAssertion env r a s := rfl

theorem C99_notStored : ¬ Suffices (· ≠ .notStored) := by
  intro h
  have hh : (denying app.env).attestation reg (attestationArgs (regCredential challenge1) ch1 ada) db2 =
      (.error (.lib .registration), db3 none) := by
    rw [denying_eq, code_registration (stores rfl rfl rfl)]
  have h3 := step_registration run2 (read_registration (t := 5000) (by decide) rfl) hh
  have h4 := login4 (evs := [e1, e2, e3]) h3.2 (by
    rw [code_login_eq]
    exact code_login' (Or.inl rfl) (knows none) (updates1 none))
  obtain ⟨_, _, _, pre, e, k, -, -, -, -, -, ho, ⟨f, t, _, _, _, _, _, _, _, he, hs, -⟩, -⟩ :=
    (h app _ Demo.codec Demo.json Demo.refuses_mark (keeps_denying Demo.refuses_mark)).registered _ _ _ h4.1
  rcases occurs2 ho with ⟨rfl, rfl⟩ | ⟨rfl, rfl⟩ | ⟨rfl, rfl⟩
  · cases he
  · cases he
  · rw [show packageReply _ app [] [e1, e2] e3 = _ from h3.1] at hs
    simp [conclude, success, Exc.isWebAuthn] at hs

/-- There is nothing in the attestation object. -/
def hollow : Credential :=
  { regCredential challenge1 with response := .attestation (clientData "webauthn.create" challenge1) [] }

theorem swapping_eq {env : Env} {σ : Type} {r : Registrar σ} {a : AttestationArgs} {s : σ} {ob cdj ob' : Bytes}
    (h : a.credential.response = .attestation cdj ob') :
    (swapping env ob).attestation r a s = handleAttestation env (naming a.credential r) (swapped a cdj ob) s := by
  simp only [swapping, h]

theorem naming_eq {σ : Type} {c : Credential} {r : Registrar σ} {record : AttestationRecord} {s : σ} :
    (naming c r).registerAttestation record s = r.registerAttestation { record with credential := c } s := rfl

theorem swapping_login_eq {env : Env} {σ : Type} {r : Registrar σ} {a : AssertionArgs} {s : σ} {ob : Bytes} :
    (swapping env ob).assertion r a s = handleAssertion env r a s := rfl

theorem nothing_loaded {v : PyVal × Bytes} : app.env.cborLoad [] ≠ .ok v := by
  rw [show app.env.cborLoad [] = Cbor.load [] from rfl, show Cbor.load [] = .error _ from rfl]
  exact fun h => nomatch h

theorem C99_object : ¬ Suffices (· ≠ .object) := by
  intro h
  have hh : (swapping app.env attObj).attestation reg (attestationArgs hollow ch1 ada) db2 = (.ok (), db3 none) := by
    rw [swapping_eq (cdj := clientData "webauthn.create" challenge1) (ob' := []) rfl]
    refine code_registration (r := naming hollow reg) ?_
    rw [naming_eq]
    exact stores rfl rfl rfl
  have h3 := step_registration run2 (read_registration (t := 5000) (by decide) rfl) hh
  have h4 := login4 h3.2 (by
    rw [swapping_login_eq]
    exact code_login' (Or.inl rfl) (knows none) (updates1 none))
  obtain ⟨_, _, _, pre, e, k, -, -, -, -, -, ho, ⟨f, t, n, c, cdj, ob, o, raw, acd, he, -, hf, -, hc, hob, -⟩, -⟩ :=
    (h app _ Demo.codec Demo.json Demo.refuses_mark (keeps_swapping Demo.refuses_mark)).registered _ _ _ h4.1
  rcases occurs2 ho with ⟨rfl, rfl⟩ | ⟨rfl, rfl⟩ | ⟨rfl, rfl⟩
  · cases he
  · cases he
  · cases he
    obtain ⟨-, rfl, -⟩ := submits_unique hf (form1 _ _)
    obtain ⟨-, rfl⟩ := Response.attestation.inj hc
    obtain ⟨d, rest, -, hl, -⟩ := hob
    exact nothing_loaded hl

/-! ## Client data -/

def said (type : String) (ch : Bytes) (origin : String) : Bytes :=
  utf8Encode (clientText type (urlBase64Encode ch) origin)

def saying (type : String) (ch : Bytes) (origin : String) : ClientData := ⟨type, urlBase64Encode ch, origin, none⟩

theorem said_standard (type : String) (ch : Bytes) (origin : String) :
    StandardClientData app.env (said type ch origin) (saying type ch origin) := by
  obtain ⟨text, d, h1, h2, h3, h4, h5, h6⟩ : ClientDataText type (urlBase64Encode ch) origin none (said type ch origin) :=
    clientData_client rfl
  have : ClientDataOf app.env (said type ch origin) (saying type ch origin) :=
    ⟨d, ⟨text, h1, Demo.json _ _ h2⟩, h3, h4, h5, h6⟩
  exact ⟨_, .plain _ (unmarked_of Demo.refuses_mark this), this⟩

theorem said_unique {type type' origin : String} {ch ch' : Bytes} {e : ExpectedOrigin}
    (h : ClientSays app.env (said type ch origin) type' ch' e) :
    type = type' ∧ ch = ch' ∧ ∃ s ∈ originList e, SameOrigin app.env origin s := by
  obtain ⟨cd, ⟨b, hm, h1⟩, h2, h3, h4⟩ := h
  obtain ⟨b', hm', h1'⟩ := said_standard type ch origin
  obtain rfl : b = b' := (withoutMark_iff.mpr hm).symm.trans (withoutMark_iff.mpr hm')
  rw [← parseClientData_ok_iff] at h1 h1'
  rw [h1] at h1'
  cases h1'
  refine ⟨h2, ?_, h4⟩
  rw [← urlBase64Decode_ok_iff] at h3
  have := (C38_base64url_encoding ch).1
  rw [← urlBase64Decode_ok_iff, show urlBase64Decode (urlBase64Encode ch) = .ok ch' from h3] at this
  exact (Except.ok.inj this).symm

theorem nothing_said {type : String} {ch : Bytes} {e : ExpectedOrigin} : ¬ ClientSays app.env [] type ch e := by
  rintro ⟨cd, ⟨b, hm, h1⟩, -⟩
  obtain rfl : [] = b := by
    rw [← withoutMark_iff] at hm
    exact hm
  rw [← parseClientData_ok_iff, show parseClientData app.env [] = .error _ from rfl] at h1
  cases h1

theorem elsewhere : ¬ SameOrigin app.env "https://example.com" origin := by
  rintro ⟨o, o', _, h1, h2, h3, -⟩
  obtain rfl := originOf_unique h1 (originOf_serialises serialises_example')
  obtain rfl := originOf_unique h2 (originOf_serialises serialises_app)
  simp at h3

theorem home : ∃ s ∈ originList (.one origin), SameOrigin app.env origin s :=
  have h := originOf_serialises (env := app.env) serialises_app
  ⟨_, List.mem_singleton.mpr rfl, _, _, _, h, h, rfl, rfl, hostOf_iff.mpr rfl, hostOf_iff.mpr rfl⟩

/-- Only two challenges were issued. -/
theorem issued {rep : List Event → Event → Reply} {evs pre : List Event} {e : Event} {n : Nat} {ch : Bytes} {t : Int}
    {name : String} (h : evs = [e1, e2] ∨ evs = [e1, e2, e3]) (ho : Occurs evs pre e)
    (hi : IssuesBy rep pre e n ch t name) : ch = challenge1 ∨ ch = challenge2 := by
  have hm : e ∈ [e1, e2, e3] := by
    obtain ⟨post, ho⟩ := ho
    rcases h with rfl | rfl
    · have : e ∈ [e1, e2] := by rw [ho]; simp
      simp only [List.mem_cons, List.not_mem_nil, or_false] at this ⊢
      exact this.imp_right Or.inl
    · rw [ho]
      simp
  simp only [e1, e2, e3, List.mem_cons, List.not_mem_nil, or_false] at hm
  rcases hi.2 with ⟨_, rfl⟩ | rfl <;> rcases hm with hm | hm | hm <;> cases hm
  · exact Or.inl rfl
  · exact Or.inr rfl

/-- The response succeeds with client data that do not say what they should. -/
theorem stale {rep : List Event → Event → Reply} (u : Upheld rep app) {evs : List Event} {e : Event} {t : Int} {n : Nat}
    {c : Credential} {name : String} (h : evs = [e1, e2] ∨ evs = [e1, e2, e3]) (hs : SucceedsBy rep app evs e t n c name)
    (hc : ∀ ch, ch = challenge1 ∨ ch = challenge2 →
      ¬ ClientSays app.env c.response.clientDataJSON (ceremony e) ch (.one "http://localhost:5000")) : False := by
  obtain ⟨pre, e', ch, t', name', ho, hi, -, h1⟩ := u.fresh _ _ _ _ _ _ hs
  exact hc ch (issued h ho hi) h1

/-! ## Registrations that only the part left out forbids -/

def sent (cdj ob : Bytes) : Credential := { regCredential challenge1 with response := .attestation cdj ob }

theorem judged_registration {p : Part} (hs : Suffices (· ≠ p)) {cdj ob : Bytes} {db : Db}
    (h : RegistersAs (· ≠ p) app.env reg (attestationArgs (sent cdj ob) ch1 ada) db2 db)
    (hc : ∀ ch, ch = challenge1 ∨ ch = challenge2 →
      ¬ ClientSays app.env cdj "webauthn.create" ch (.one "http://localhost:5000")) : False := by
  obtain ⟨db', hh⟩ := judging_registers h
  have h3 := step_registration (pkg := ⟨(judging (· ≠ p) app.env).attestation, (codePackage app.env).assertion⟩) run2
    (read_registration (t := 5000) (by decide) rfl) hh
  exact stale (hs app _ Demo.codec Demo.json Demo.refuses_mark (keeps_both keeps_judging (keeps_code Demo.refuses_mark)))
    (Or.inl rfl) ⟨h3.1, _, Or.inl rfl, form1 _ _⟩ hc

theorem attObj_of : AttObjOf app.env attObj ⟨regAd, .NONE, .none⟩ regRaw := by
  obtain ⟨d, h1, h2, h3, h4, h5⟩ := attObj_enc
  have := (Demo.codec).roundTrip h4 h5 []
  rw [List.append_nil] at this
  exact ⟨d, [], [], this, h3, encodedAuthData_of Demo.codec regRaw_enc, h1, h2, rfl, rfl⟩

theorem registersAs {p : Part} {c : Credential} {cdj : Bytes} {cd : ClientData}
    (h0 : p ≠ .attestation → c.response = .attestation cdj attObj) (hid : c.rawId = Demo.credId)
    (h1 : p ≠ .createData → StandardClientData app.env cdj cd) (h2 : p ≠ .createType → cd.type = "webauthn.create")
    (h3 : p ≠ .createChallenge → Base64UrlText cd.challenge challenge1)
    (h4 : p ≠ .createOrigin → ∃ s ∈ originList (.one origin), SameOrigin app.env cd.origin s) :
    RegistersAs (· ≠ p) app.env reg (attestationArgs c ch1 ada) db2 (db3 none) :=
  ⟨cdj, attObj, ⟨regAd, .NONE, .none⟩, regRaw, .NONE, none, cd, fun h => h0 h.symm, fun h => h1 h.symm, fun h => h2 h.symm,
    fun h => h3 h.symm, fun h => h4 h.symm, fun _ => attObj_of, fun _ => stores rfl rfl hid⟩

theorem C99_attestation : ¬ Suffices (· ≠ .attestation) := fun h =>
  judged_registration h (cdj := []) (ob := [])
    (registersAs (cdj := said "webauthn.create" challenge1 origin) (fun h => absurd rfl h) rfl (fun _ => said_standard _ _ _)
      (fun _ => rfl) (fun _ => (C38_base64url_encoding _).1) fun _ => home) fun _ _ => nothing_said

theorem C99_createData : ¬ Suffices (· ≠ .createData) := fun h =>
  judged_registration h (cdj := []) (ob := attObj)
    (registersAs (cd := saying "webauthn.create" challenge1 origin) (fun _ => rfl) rfl (fun h => absurd rfl h)
      (fun _ => rfl) (fun _ => (C38_base64url_encoding _).1) fun _ => home) fun _ _ => nothing_said

theorem C99_createType : ¬ Suffices (· ≠ .createType) := fun h =>
  judged_registration h (cdj := said "webauthn.get" challenge1 origin) (ob := attObj)
    (registersAs (fun _ => rfl) rfl (fun _ => said_standard _ _ _) (fun h => absurd rfl h)
      (fun _ => (C38_base64url_encoding _).1) fun _ => home) fun _ _ h => by
        have := (said_unique h).1
        simp at this

theorem C99_createChallenge : ¬ Suffices (· ≠ .createChallenge) := fun h =>
  judged_registration h (cdj := said "webauthn.create" [] origin) (ob := attObj)
    (registersAs (fun _ => rfl) rfl (fun _ => said_standard _ _ _) (fun _ => rfl) (fun h => absurd rfl h) fun _ => home)
    fun _ hc h => by
        have := (said_unique h).2.1
        rcases hc with rfl | rfl <;> cases this

theorem C99_createOrigin : ¬ Suffices (· ≠ .createOrigin) := fun h =>
  judged_registration h (cdj := said "webauthn.create" challenge1 "https://example.com") (ob := attObj)
    (registersAs (fun _ => rfl) rfl (fun _ => said_standard _ _ _) (fun _ => rfl) (fun _ => (C38_base64url_encoding _).1)
      fun h => absurd rfl h)
    fun _ _ h => by
        obtain ⟨s, hs, h⟩ := (said_unique h).2.2
        obtain rfl := List.mem_singleton.mp hs
        exact elsewhere h

/-! ## Logins that only the part left out forbids -/

def shown (r : Response) : Credential := { authCredential 1 challenge1 with response := r }

def login (r : Response) (u : User) : Event := .authenticationResponse (formOf "1" (shown r) u.username) 9000

noncomputable abbrev lax (p : Part) : Package :=
  ⟨(codePackage app.env).attestation, (judging (· ≠ p) app.env).assertion⟩

noncomputable abbrev laxly (p : Part) : List Event → Event → Reply := packageReply (fun _ => lax p) app []

theorem lax_registers (p : Part) : laxly p [e1, e2] e3 = success ∧
    (packageRun (fun _ => lax p) app [] [e1, e2, e3]).2 = db3 none :=
  registered_code fun _ _ => rfl

theorem lax_upheld {p : Part} (hs : Suffices (· ≠ p)) : Upheld (laxly p) app :=
  hs app _ Demo.codec Demo.json Demo.refuses_mark (keeps_both (keeps_code Demo.refuses_mark) keeps_judging)

theorem judged_login {p : Part} {r : Response} {u : User} {db : Db} (hu : u ∈ [ada, bob])
    (h : LogsInAs (· ≠ p) app.env reg (assertionArgs (shown r) ch1 u) (db3 none) db)
    (hr : isAttestation r = false) : laxly p [e1, e2, e3] (login r u) = success := by
  obtain ⟨db', hh⟩ := judging_logsIn h
  exact (step_login (pkg := lax p) (lax_registers p).2 (read_login hu (by decide) hr) hh).1

theorem judged_stale {p : Part} (hs : Suffices (· ≠ p)) {cdj raw sig : Bytes} {handle : Option Bytes} {db : Db}
    (h : LogsInAs (· ≠ p) app.env reg (assertionArgs (shown (.assertion cdj raw sig handle)) ch1 ada) (db3 none) db)
    (hc : ∀ ch, ch = challenge1 ∨ ch = challenge2 →
      ¬ ClientSays app.env cdj "webauthn.get" ch (.one "http://localhost:5000")) : False :=
  stale (lax_upheld hs) (Or.inr rfl) ⟨judged_login (u := ada) (by simp) h rfl, _, Or.inr rfl, form1 _ _⟩ hc

/-- Authenticator data for a Relying Party, with flags. -/
def rawFor (id : String) (f : UInt8) : Bytes := Demo.sha (utf8Encode id) ++ [f] ++ [0, 0, 0, 1] ++ [] ++ []

def adFor (id : String) (f : UInt8) : AuthData := ⟨Demo.sha (utf8Encode id), f.toNat, 1, none, none⟩

theorem rawFor_enc (id : String) {f : UInt8} (hf : f = 0 ∨ f = 1) : EncodedAuthData app.env (adFor id f) (rawFor id f) := by
  rcases hf with rfl | rfl
  · exact ⟨0, [0, 0, 0, 1], [], [], rfl, Demo.sha_length _, rfl, rfl, Demo.bigEndian_of (by simp [beNat, adFor]),
      ⟨by simp, rfl⟩, ⟨by simp, rfl⟩⟩
  · exact ⟨1, [0, 0, 0, 1], [], [], rfl, Demo.sha_length _, rfl, rfl, Demo.bigEndian_of (by simp [beNat, adFor]),
      ⟨by simp; decide, rfl⟩, ⟨by simp; decide, rfl⟩⟩

theorem rawFor_hash (id : String) {f : UInt8} (hf : f = 0 ∨ f = 1) : RpHashOk app.env (rawFor id f) id :=
  ⟨_, rfl, by rw [← (authDataOf_head (encodedAuthData_of Demo.codec (rawFor_enc id hf))).1]; rfl⟩

def signing (cdj raw : Bytes) : Bytes := Demo.sign Demo.pubKey (raw ++ Demo.sha cdj)

theorem signing_ok (cdj raw : Bytes) : SignedBy app.env Demo.key (signing cdj raw) (raw ++ app.env.sha256 cdj) :=
  .ecdsa _ _ _ _ Demo.pubKey _ _ _ _ Demo.key_of rfl .es256 (Demo.check_sign Demo.pubKey _)

theorem flag_one : (1 : UInt8).toNat.testBit 0 = true := by decide

theorem counter_free {raw : Bytes} {b : Bool} : CounterOkBy Above none raw b := fun _ h => nomatch h

theorem logsInAs {p : Part} {c : Credential} {u user : User} {cdj sig : Bytes} {handle : Option Bytes} {cd : ClientData}
    {id : String} {f : UInt8} {rp' : RpEntity} (hf : f = 0 ∨ f = 1) (hid : c.rawId = Demo.credId)
    (h0 : p ≠ .assertion → c.response = .assertion cdj (rawFor id f) sig handle)
    (h1 : p ≠ .user → UserOk ada.entity (some u.entity) handle user.entity)
    (h2 : p ≠ .rp → rp' = rp)
    (h3 : p ≠ .getData → StandardClientData app.env cdj cd) (h4 : p ≠ .getType → cd.type = "webauthn.get")
    (h5 : p ≠ .getChallenge → Base64UrlText cd.challenge challenge1)
    (h6 : p ≠ .getOrigin → ∃ s ∈ originList (.one origin), SameOrigin app.env cd.origin s)
    (h7 : p ≠ .rpHash → id = rp'.id) (h8 : p ≠ .present → f = 1)
    (h9 : p ≠ .signed → sig = signing cdj (rawFor id f)) :
    LogsInAs (· ≠ p) app.env reg (assertionArgs c ch1 u) (db3 none) (db3 (some 1)) :=
  ⟨data none, db3 none, user.entity, rp', adFor id f, cdj, rawFor id f, sig, handle, cd, fun _ => by
      show reg.getCredentialData c.rawId _ = _
      rw [hid]
      exact knows none,
    fun h => h0 h.symm, fun h => h1 h.symm, fun h => by rw [h2 h.symm]; exact .arg _, fun h => h3 h.symm, fun h => h4 h.symm,
    fun h => h5 h.symm, fun h => h6 h.symm, fun _ => encodedAuthData_of Demo.codec (rawFor_enc id hf),
    fun h => by rw [← h7 h.symm]; exact rawFor_hash id hf,
    fun h => by rw [h8 h.symm]; exact Demo.flagSet_enc (rawFor_enc id (Or.inr rfl)) (i := 0) flag_one,
    fun h => by rw [h9 h.symm]; exact signing_ok _ _, fun _ => counter_free, fun _ => updates (r := ⟨c, _, _, _⟩) hid⟩

theorem ada_ok : UserOk ada.entity (some ada.entity) (some handle1) ada.entity :=
  .given _ _ rfl fun _ h => (Option.some.inj h).symm

theorem C99_assertion : ¬ Suffices (· ≠ .assertion) := fun h =>
  judged_stale h (cdj := []) (raw := []) (sig := []) (handle := none)
    (logsInAs (cdj := said "webauthn.get" challenge1 origin) (Or.inr rfl) rfl (fun h => absurd rfl h) (fun _ => ada_ok)
      (fun _ => rfl) (fun _ => said_standard _ _ _) (fun _ => rfl) (fun _ => (C38_base64url_encoding _).1) (fun _ => home)
      (fun _ => rfl) (fun _ => rfl) fun _ => rfl) fun _ _ => nothing_said

theorem C99_getData : ¬ Suffices (· ≠ .getData) := fun h =>
  judged_stale h (cdj := []) (logsInAs (cd := saying "webauthn.get" challenge1 origin) (Or.inr rfl) rfl (fun _ => rfl)
    (fun _ => ada_ok) (fun _ => rfl) (fun h => absurd rfl h) (fun _ => rfl) (fun _ => (C38_base64url_encoding _).1)
    (fun _ => home) (fun _ => rfl) (fun _ => rfl) fun _ => rfl) fun _ _ => nothing_said

theorem C99_getType : ¬ Suffices (· ≠ .getType) := fun h =>
  judged_stale h (cdj := said "webauthn.create" challenge1 origin) (logsInAs (Or.inr rfl) rfl (fun _ => rfl)
    (fun _ => ada_ok) (fun _ => rfl) (fun _ => said_standard _ _ _) (fun h => absurd rfl h)
    (fun _ => (C38_base64url_encoding _).1) (fun _ => home) (fun _ => rfl) (fun _ => rfl) fun _ => rfl) fun _ _ h => by
      have := (said_unique h).1
      simp at this

theorem C99_getChallenge : ¬ Suffices (· ≠ .getChallenge) := fun h =>
  judged_stale h (cdj := said "webauthn.get" [] origin) (logsInAs (Or.inr rfl) rfl (fun _ => rfl)
    (fun _ => ada_ok) (fun _ => rfl) (fun _ => said_standard _ _ _) (fun _ => rfl) (fun h => absurd rfl h)
    (fun _ => home) (fun _ => rfl) (fun _ => rfl) fun _ => rfl) fun _ hc h => by
      have := (said_unique h).2.1
      rcases hc with rfl | rfl <;> cases this

theorem C99_getOrigin : ¬ Suffices (· ≠ .getOrigin) := fun h =>
  judged_stale h (cdj := said "webauthn.get" challenge1 "https://example.com") (logsInAs (Or.inr rfl) rfl (fun _ => rfl)
    (fun _ => ada_ok) (fun _ => rfl) (fun _ => said_standard _ _ _) (fun _ => rfl) (fun _ => (C38_base64url_encoding _).1)
    (fun h => absurd rfl h) (fun _ => rfl) (fun _ => rfl) fun _ => rfl) fun _ _ h => by
      obtain ⟨s, hs, h⟩ := (said_unique h).2.2
      obtain rfl := List.mem_singleton.mp hs
      exact elsewhere h

/-- Bob logs in with the credential of Ada. -/
theorem C99_user : ¬ Suffices (· ≠ .user) := by
  intro h
  have hl : laxly .user [e1, e2, e3] (login (.assertion (said "webauthn.get" challenge1 origin) (rawFor "localhost" 1)
      (signing (said "webauthn.get" challenge1 origin) (rawFor "localhost" 1)) (some handle1)) bob) = success :=
    judged_login (by simp) (logsInAs (user := bob) (Or.inr rfl) rfl (fun _ => rfl) (fun h => absurd rfl h) (fun _ => rfl)
      (fun _ => said_standard _ _ _) (fun _ => rfl) (fun _ => (C38_base64url_encoding _).1) (fun _ => home) (fun _ => rfl)
      (fun _ => rfl) fun _ => rfl) rfl
  obtain ⟨n, c, name, pre, e, k, _, _, _, _, hf, ho, ⟨f, t, _, _, _, _, _, _, _, he, -, hf', -⟩, -⟩ :=
    (lax_upheld h).registered _ _ _ hl
  obtain ⟨-, -, rfl⟩ := submits_unique hf (form1 _ _)
  rcases occurs2 ho with ⟨rfl, rfl⟩ | ⟨rfl, rfl⟩ | ⟨rfl, rfl⟩
  · cases he
  · cases he
  · cases he
    obtain ⟨-, -, h⟩ := submits_unique hf' (form1 _ _)
    simp [bob] at h

theorem unsigned {k : CPK} {data : Bytes} : ¬ SignedBy app.env k [] data := by
  have hk : ∀ pk, Demo.check pk [] data ≠ .ok () := by
    intro pk h
    simp only [Demo.check] at h
    split_ifs at h with hs
    have hl := congrArg List.length hs
    have h32 : (Demo.sha data).length = 32 := Demo.sha_length data
    cases pk <;> simp only [Demo.sign, List.length_append, List.length_nil, h32] at hl <;> omega
  rintro (⟨_, _, _, _, pk, _, _, _, _, _, _, _, h⟩ | ⟨_, _, _, pk, _, _, _, h⟩)
  · exact hk pk h
  · exact hk pk h

theorem sig_of {cdj raw sig cdj' raw' sig' : Bytes} {handle handle' : Option Bytes}
    (h : (shown (.assertion cdj raw sig handle)).response = .assertion cdj' raw' sig' handle') : sig' = sig :=
  (Response.assertion.inj h).2.2.1.symm

theorem C99_signed : ¬ Suffices (· ≠ .signed) := by
  intro h
  have hl : laxly .signed [e1, e2, e3] (login (.assertion (said "webauthn.get" challenge1 origin) (rawFor "localhost" 1)
      [] (some handle1)) ada) = success :=
    judged_login (by simp) (logsInAs (Or.inr rfl) rfl (fun _ => rfl) (fun _ => ada_ok) (fun _ => rfl)
      (fun _ => said_standard _ _ _) (fun _ => rfl) (fun _ => (C38_base64url_encoding _).1) (fun _ => home) (fun _ => rfl)
      (fun _ => rfl) fun h => absurd rfl h) rfl
  obtain ⟨n, c, name, pre, e, k, _, _, _, _, hf, -, -, hr, hsig⟩ := (lax_upheld h).registered _ _ _ hl
  obtain ⟨-, rfl, -⟩ := submits_unique hf (form1 _ _)
  exact unsigned (sig_of hr ▸ hsig)

/-! ## Logins that the holder of the key did not approve -/

def approvalOf (cdj raw : Bytes) : Approval := ⟨origin, "webauthn.get", challenge1, cdj, raw⟩

theorem holder_of_approval {cdj raw sig : Bytes}
    (hcdj : ClientDataText "webauthn.get" (urlBase64Encode challenge1) origin none cdj) :
    Holder app.env Demo.key (Sent app ([e1, e2, e3] ++ [login (.assertion cdj raw sig (some handle1)) ada]))
      (· = approvalOf cdj raw) := by
  have key : ∀ cdj' raw' sig', Sent app ([e1, e2, e3] ++ [login (.assertion cdj raw sig (some handle1)) ada]) cdj' raw' sig' →
      cdj' = cdj ∧ raw' = raw := by
    rintro cdj' raw' sig' ⟨f, t, n, c, name, handle, hm, hf, hc⟩
    simp only [e1, e2, e3, login, List.cons_append, List.nil_append, List.mem_cons, List.not_mem_nil, or_false,
      reduceCtorEq, false_or, Event.authenticationResponse.injEq] at hm
    obtain ⟨rfl, -⟩ := hm
    obtain ⟨-, rfl, -⟩ := submits_unique hf (form1 _ _)
    have := Response.assertion.inj hc
    exact ⟨this.1.symm, this.2.1.symm⟩
  refine ⟨?_, ?_, ?_, Demo.sha_length⟩
  · rintro a rfl
    exact ⟨_, (C38_base64url_encoding challenge1).1, hcdj⟩
  · intro cdj' raw' sig' hs _
    obtain ⟨rfl, rfl⟩ := key cdj' raw' sig' hs
    exact ⟨_, rfl, rfl⟩
  · rintro cdj' raw' sig' a hs rfl _
    exact (key cdj' raw' sig' hs).1

theorem unapproved {p : Part} (hs : Suffices (· ≠ p)) {cdj raw sig : Bytes}
    (hcdj : ClientDataText "webauthn.get" (urlBase64Encode challenge1) origin none cdj)
    (hl : laxly p [e1, e2, e3] (login (.assertion cdj raw sig (some handle1)) ada) = success)
    (h : ¬ (RpHashOk app.env raw "localhost" ∧ FlagSet raw 0)) : False := by
  obtain ⟨-, a, _, _, _, _, _, rfl, ha, -⟩ := (lax_upheld hs).approved _ _ _ _ _ _ _ _ _ _ _ (holder_of_approval hcdj)
    ⟨[], rfl⟩ (registers_of (lax_registers p).1) hl (form1 _ _)
  exact h ⟨ha.rp, ha.present⟩

theorem said_text (type : String) (ch : Bytes) (origin : String) :
    ClientDataText type (urlBase64Encode ch) origin none (said type ch origin) := clientData_client rfl

theorem other_hash {f : UInt8} (hf : f = 0 ∨ f = 1) : ¬ RpHashOk app.env (rawFor "example.com" f) "localhost" := by
  rintro ⟨b, hb, h⟩
  obtain ⟨b', hb', h'⟩ := rawFor_hash "example.com" hf
  rw [h] at h'
  have e1 : b = utf8Encode "localhost" := hb
  have e2 : b' = utf8Encode "example.com" := hb'
  rw [e1, e2] at h'
  exact absurd h' (by
    show ¬ Demo.sha _ = Demo.sha _
    unfold Demo.sha
    decide +kernel)

theorem C99_rp : ¬ Suffices (· ≠ .rp) := fun h =>
  unapproved h (raw := rawFor "example.com" 1) (said_text _ _ _)
    (judged_login (by simp) (logsInAs (rp' := { rp with id := "example.com" }) (Or.inr rfl) rfl (fun _ => rfl)
      (fun _ => ada_ok) (fun h => absurd rfl h) (fun _ => said_standard _ _ _) (fun _ => rfl)
      (fun _ => (C38_base64url_encoding _).1) (fun _ => home) (fun _ => rfl) (fun _ => rfl) fun _ => rfl) rfl)
    fun h => other_hash (Or.inr rfl) h.1

theorem C99_rpHash : ¬ Suffices (· ≠ .rpHash) := fun h =>
  unapproved h (raw := rawFor "example.com" 1) (said_text _ _ _)
    (judged_login (by simp) (logsInAs (Or.inr rfl) rfl (fun _ => rfl)
      (fun _ => ada_ok) (fun _ => rfl) (fun _ => said_standard _ _ _) (fun _ => rfl)
      (fun _ => (C38_base64url_encoding _).1) (fun _ => home) (fun h => absurd rfl h) (fun _ => rfl) fun _ => rfl) rfl)
    fun h => other_hash (Or.inr rfl) h.1

theorem C99_present : ¬ Suffices (· ≠ .present) := fun h =>
  unapproved h (raw := rawFor "localhost" 0) (said_text _ _ _)
    (judged_login (by simp) (logsInAs (Or.inl rfl) rfl (fun _ => rfl)
      (fun _ => ada_ok) (fun _ => rfl) (fun _ => said_standard _ _ _) (fun _ => rfl)
      (fun _ => (C38_base64url_encoding _).1) (fun _ => home) (fun _ => rfl) (fun h => absurd rfl h) fun _ => rfl) rfl)
    fun h => by
      obtain ⟨-, f, hf, hb⟩ := h
      obtain ⟨-, -, ⟨f', hf', he⟩, -⟩ :=
        authDataOf_head (encodedAuthData_of Demo.codec (rawFor_enc "localhost" (Or.inl rfl : (0 : UInt8) = 0 ∨ (0 : UInt8) = 1)))
      obtain rfl := Option.some.inj (hf.symm.trans hf')
      rw [he] at hb
      simp [adFor] at hb

/-- C99: without any one of its parts the contract does not give the guarantees. -/
theorem C99_needed : ∀ p, ¬ Suffices (· ≠ p)
  | .attestation => C99_attestation
  | .createData => C99_createData
  | .createType => C99_createType
  | .createChallenge => C99_createChallenge
  | .createOrigin => C99_createOrigin
  | .object => C99_object
  | .stored => C99_stored
  | .notStored => C99_notStored
  | .known => C99_known
  | .assertion => C99_assertion
  | .user => C99_user
  | .rp => C99_rp
  | .getData => C99_getData
  | .getType => C99_getType
  | .getChallenge => C99_getChallenge
  | .getOrigin => C99_getOrigin
  | .authData => C99_authData
  | .rpHash => C99_rpHash
  | .present => C99_present
  | .signed => C99_signed
  | .counter => C99_counter
  | .updated => C99_updated
  | .notUpdated => C99_notUpdated

/-- C99: which parts give the guarantees: all of them, and no fewer. -/
theorem C99_exactly (req : Part → Prop) : Suffices req ↔ ∀ p, req p :=
  ⟨fun h p => by
    by_contra hp
    exact C99_needed p (suffices_mono (fun q hq => by rintro rfl; exact hp hq) h),
    fun h => suffices_mono (fun p _ => h p) C99_suffices⟩

end WebAuthn.Flask.Run.Needed
