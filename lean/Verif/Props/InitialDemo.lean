import Verif.Props.InitialServes

/-!
# The application forgets the counter of a registration (C82)
-/

namespace WebAuthn.Flask.Run

open Spec Props

/-- UP, AT set; counter 5. -/
def regAd5 : AuthData := ⟨rpHash, 0x41, 5, some Demo.attested, none⟩

def regRaw5 : Bytes :=
  rpHash ++ [0x41] ++ [0, 0, 0, 5] ++
    (List.replicate 16 0xaa ++ [0, 4] ++ Demo.credId ++ Demo.keyBytes) ++ []

theorem regRaw5_enc : EncodedAuthData app.env regAd5 regRaw5 :=
  ⟨0x41, [0, 0, 0, 5], _, [], rfl, Demo.sha_length _, rfl, rfl, Demo.bigEndian_of rfl,
    ⟨by decide, [0, 4], Demo.key, Demo.keyBytes, rfl, rfl, rfl, Demo.bigEndian_of rfl, rfl, rfl,
      Demo.keyBytes_enc⟩, ⟨by decide, rfl⟩⟩

def attObj5 : Bytes := (Cbor.enc (.dict (Demo.objMap regRaw5))).toOption.getD []

theorem regRaw5_length : regRaw5.length < 2 ^ 64 := by
  have : Demo.keyBytes.length = 77 := by decide
  simp [regRaw5, rpHash, show ∀ b, (Demo.sha b).length = 32 from Demo.sha_length, this, Demo.credId]

theorem attObj5_enc : EncodedNoneAttestation app.env regRaw5 attObj5 := by
  refine ⟨Demo.objMap regRaw5, Demo.lookup_objMap rfl, Demo.lookup_objMap rfl, Demo.lookup_objMap rfl,
    Demo.objMap_plain _, ?_⟩
  obtain ⟨b, hb⟩ := Demo.objMap_enc regRaw5_length
  show Cbor.enc _ = _
  rw [attObj5, hb]
  rfl

theorem attObj5_of : AttObjOf app.env attObj5 ⟨regAd5, .NONE, .none⟩ regRaw5 := by
  obtain ⟨d, h1, h2, h3, h4, h5⟩ := attObj5_enc
  have := (Demo.codec).roundTrip h4 h5 []
  rw [List.append_nil] at this
  exact ⟨d, [], [], this, h3, encodedAuthData_of Demo.codec regRaw5_enc, h1, h2, rfl, rfl⟩

def regCredential5 : Credential :=
  { id := "wdLj9A", type := "public-key", rawId := Demo.credId,
    response := .attestation (clientData "webauthn.create" challenge1) attObj5 }

/-- Ada registers an authenticator that has counted to five. -/
def begin5 : Event := .registrationResponse (formOf "1" regCredential5 "ada") 5000

theorem begin5_reply : reply app [e1, e2] begin5 = success := by
  refine C56_registration (app := app) Demo.codec Demo.json (pre := []) (e := e1)
    (c := regCredential5)
    (cdj := clientData "webauthn.create" challenge1) (ob := attObj5) (acd := Demo.attested)
    (k := Demo.key) ⟨[e2], rfl⟩ issues1 ?_ (form1 _ _) rfl (clientData_text _ _)
    (C38_base64url_encoding _).1 attObj5_enc regRaw5_enc ?_ ?_ storedKey_eq ?_ ?_ ?_
  · decide
  · rfl
  · rfl
  · exact rpHash_enc regRaw5_enc rfl
  · exact Demo.flagSet_enc regRaw5_enc (by decide)
  · exact none_registered

theorem begin5_registers : Registers app [e1, e2] begin5 Demo.credId "ada" Demo.key :=
  ⟨_, _, _, regCredential5, _, _, _, regRaw5, Demo.attested, rfl, begin5_reply,
    form1 _ _, rfl, rfl, attObj5_of, rfl, rfl⟩

theorem initial5 : HasInitialCounter app.env regCredential5 5 :=
  ⟨_, _, _, _, rfl, attObj5_of, (authDataOf_head (encodedAuthData_of Demo.codec regRaw5_enc)).2.2.2⟩

theorem begin5_begins : BeginsBy (reply app) app [e1, e2] begin5 Demo.credId 5 :=
  ⟨_, _, _, _, _, rfl, begin5_reply, form1 _ _, rfl, initial5⟩

/-- A login with the counter `n`. -/
def login (n : UInt8) : Event :=
  .authenticationResponse (formOf "1" (authCredential n challenge1) "ada") 9000

theorem login5_reply (n : UInt8) : reply app [e1, e2, begin5] (login n) = success := by
  refine C56_authentication (app := app) Demo.codec Demo.json (pre := []) (pre' := [e1, e2])
    (e := e1) (e' := begin5) (c := authCredential n challenge1)
    (cdj := clientData "webauthn.get" challenge1)
    (raw := authRaw n) (sig := signature n challenge1) (handle := some handle1) (ad := authAd n)
    (k := Demo.key) ⟨[e2, begin5], rfl⟩ issues1 ?_ ⟨[], rfl⟩ begin5_registers (form1 _ _) rfl
    (clientData_text _ _) (C38_base64url_encoding _).1 ?_ (authRaw_enc n) ?_ ?_
    (signature_ok n challenge1) ?_
  · decide
  · intro h hh
    obtain rfl := Option.some.inj hh
    exact ⟨_, ada_stays [begin5], rfl, rfl⟩
  · exact rpHash_enc (authRaw_enc n) rfl
  · exact Demo.flagSet_enc (authRaw_enc n) (show (1 : Nat).testBit 0 = true by decide)
  · rintro pre e m ⟨post, h⟩ ⟨f, t, n, c, name, k, rfl, -⟩
    have : Event.authenticationResponse f t ∈ [e1, e2, begin5] := by rw [h]; simp
    simp [e1, e2, begin5] at this

theorem login5_logs (n : UInt8) :
    AuthenticatesBy (reply app) app [e1, e2, begin5] (login n) Demo.credId n.toNat :=
  ⟨_, _, _, _, _, rfl, login5_reply n, form1 _ _, rfl, counter_of n challenge1⟩

/-- C82 is false of the application: Ada registers an authenticator that has counted to five,
and a copy of it that has counted to one logs in. -/
theorem C82_refuted : ∃ app : App, ¬ CounterAbove (reply app) app := by
  refine ⟨app, fun h => ?_⟩
  have := h [e1, e2, begin5] [e1, e2] begin5 (login 1) Demo.credId 5 1 ⟨[], rfl⟩ begin5_begins
    (login5_logs 1) (by decide)
  exact absurd this (by decide)

/-! ## The repaired application -/

theorem login5_grows (n : UInt8) (hn : 5 < n.toNat) (id : Bytes) (m k : Nat)
    (hs : SignsUp app [e1, e2, begin5, login n] id m)
    (hl : LogsIn app [e1, e2, begin5, login n] id k) : m < k := by
  obtain ⟨f, t, i, c, name, he, hf, -, hc⟩ := hs
  obtain ⟨f', t', i', c', name', he', hf', -, hc'⟩ := hl
  simp only [e1, e2, begin5, login, List.mem_cons, List.not_mem_nil, or_false, reduceCtorEq,
    false_or] at he he'
  cases he
  cases he'
  obtain ⟨-, rfl, -⟩ := submits_unique hf (form1 _ _)
  obtain ⟨-, rfl, -⟩ := submits_unique hf' (form1 _ _)
  rw [hasInitialCounter_unique hc initial5, hasCounter_unique hc' (counter_of n challenge1)]
  exact hn

/-- The repaired application lets her register and log in with the counter six, … -/
theorem login6_initial : initialReply app [e1, e2] begin5 = success ∧
    initialReply app [e1, e2, begin5] (login 6) = success := by
  constructor
  · rw [C82_repaired_serves, begin5_reply]
    rintro id m k - ⟨f, t, i, c, name, he, -⟩
    simp [e1, e2, begin5] at he
  · rw [C82_repaired_serves, login5_reply]
    exact fun id m k hs hl _ => login5_grows 6 (by decide) id m k hs hl

/-- … so `C82_repaired` is not about nothing … -/
example : (5 : Nat) < (6 : UInt8).toNat :=
  C82_repaired app [e1, e2, begin5] [e1, e2] begin5 (login 6) Demo.credId 5 _ ⟨[], rfl⟩
    ⟨_, _, _, _, _, rfl, login6_initial.1, form1 _ _, rfl, initial5⟩
    ⟨_, _, _, _, _, rfl, login6_initial.2, form1 _ _, rfl, counter_of 6 challenge1⟩ (by decide)

/-- … and keeps the copy out. -/
example : initialReply app [e1, e2, begin5] (login 1) ≠ success := fun h =>
  absurd (C82_repaired app [e1, e2, begin5] [e1, e2] begin5 (login 1) Demo.credId 5 _ ⟨[], rfl⟩
    ⟨_, _, _, _, _, rfl, login6_initial.1, form1 _ _, rfl, initial5⟩
    ⟨_, _, _, _, _, rfl, h, form1 _ _, rfl, counter_of 1 challenge1⟩ (by decide)) (by decide)

/-- An authenticator without a counter is registered and logs in as before. -/
example : initialReply app [e1, e2, e3] (login 0) = reply app [e1, e2, e3] (login 0) := by
  refine C82_repaired_serves ?_
  rintro id m k ⟨f, t, i, c, name, he, hf, -, hc⟩ - hm
  simp only [List.cons_append, List.nil_append, e1, e2, e3, login, List.mem_cons,
    List.not_mem_nil, or_false, reduceCtorEq, false_or] at he
  cases he
  obtain ⟨-, rfl, -⟩ := submits_unique hf (form1 _ _)
  refine absurd (hasInitialCounter_unique hc ⟨_, _, ⟨regAd, .NONE, .none⟩, regRaw, rfl, ?_,
    (authDataOf_head (encodedAuthData_of Demo.codec regRaw_enc)).2.2.2⟩) hm
  · obtain ⟨d, h1, h2, h3, h4, h5⟩ := attObj_enc
    have := (Demo.codec).roundTrip h4 h5 []
    rw [List.append_nil] at this
    exact ⟨d, [], [], this, h3, encodedAuthData_of Demo.codec regRaw_enc, h1, h2, rfl, rfl⟩

theorem login7_reply : reply app [e1, e2, begin5, login 6] (login 7) = success := by
  refine C56_authentication (app := app) Demo.codec Demo.json (pre := []) (pre' := [e1, e2])
    (e := e1) (e' := begin5) (c := authCredential 7 challenge1)
    (cdj := clientData "webauthn.get" challenge1)
    (raw := authRaw 7) (sig := signature 7 challenge1) (handle := some handle1) (ad := authAd 7)
    (k := Demo.key) ⟨[e2, begin5, login 6], rfl⟩ issues1 ?_ ⟨[login 6], rfl⟩ begin5_registers
    (form1 _ _) rfl (clientData_text _ _) (C38_base64url_encoding _).1 ?_ (authRaw_enc 7) ?_ ?_
    (signature_ok 7 challenge1) ?_
  · decide
  · intro h hh
    obtain rfl := Option.some.inj hh
    exact ⟨_, ada_stays [begin5, login 6], rfl, rfl⟩
  · exact rpHash_enc (authRaw_enc 7) rfl
  · exact Demo.flagSet_enc (authRaw_enc 7) rfl
  · rintro pre e m ⟨post, h⟩ ⟨f, t, n, c, name, k, rfl, -, hf, -, rfl, hc⟩
    have h : Event.authenticationResponse f t ∈ [e1, e2, begin5, login 6] := by rw [h]; simp
    simp only [e1, e2, begin5, login, List.mem_cons, List.not_mem_nil, or_false, reduceCtorEq,
      false_or] at h
    cases h
    obtain ⟨-, rfl, -⟩ := submits_unique hf (form1 _ _)
    rw [hasCounter_unique hc (counter_of 6 challenge1)]
    decide

/-- The part that holds of the application: after a login with 6, one with 7 exceeds 5. -/
example : 5 < (7 : UInt8).toNat :=
  C82_after_partial (evs := [e1, e2, begin5, login 6]) ⟨[], rfl⟩ (login5_logs 6) (by decide)
    ⟨_, _, _, _, _, rfl, login7_reply, form1 _ _, rfl, counter_of 7 challenge1⟩

theorem initialRegistrar_login (env : Env) (a : AssertionArgs) (db : Db) :
    handleAssertion env (initialRegistrar env) a db = handleAssertion env (registrar env) a db := rfl

/-- Two replies of the repaired application are two calls of the handlers. -/
theorem initial_calls {app : App} {evs : List Event} {f f' : Form} {t t' : Int} {n n' : Nat}
    {c c' : Credential} {name name' : String}
    (h1 : initialReply app evs (.registrationResponse f t) = success)
    (h2 : initialReply app (evs ++ [.registrationResponse f t]) (.authenticationResponse f' t') = success)
    (hf : Submits app f n c name) (hf' : Submits app f' n' c' name') :
    ∃ ch u ch' u' s1 s2, handleAttestation app.env (initialRegistrar app.env) (attestationArgs c ch u)
        (initialRun app evs) = (.ok (), s1) ∧
      handleAssertion app.env (initialRegistrar app.env) (assertionArgs c' ch' u') s1 = (.ok (), s2) := by
  have h1 : (initialResponse app f t (initialRun app evs)).1 = success := h1
  have h2 : (authenticationResponse app f' t' (initialRun app (evs ++ [.registrationResponse f t]))).1 =
    success := h2
  rw [initialRun_snoc] at h2
  have h2 : (authenticationResponse app f' t' (initialResponse app f t (initialRun app evs)).2).1 =
    success := h2
  unfold initialResponse at h1 h2
  cases hr : readResponse app true f t (initialRun app evs) with
  | error r =>
    rw [hr] at h1
    exact absurd h1 (readResponse_ne_success hr)
  | ok x =>
    obtain ⟨c1, ch, u⟩ := x
    rw [hr] at h1 h2
    obtain ⟨_, _, hf1, -⟩ := readResponse_ok_iff.mp hr
    obtain ⟨-, rfl, -⟩ := submits_unique hf hf1
    simp only at h1 h2
    generalize hs : handleAttestation app.env (initialRegistrar app.env) (attestationArgs c ch u)
      (initialRun app evs) = y at h1 h2
    obtain ⟨r, s1⟩ := y
    have h1 := conclude_success.mp h1
    subst h1
    simp only at h2
    unfold authenticationResponse at h2
    split at h2
    · rename_i r hr
      exact absurd h2 (readResponse_ne_success hr)
    · rename_i c2 ch' u' hr'
      obtain ⟨_, _, hf2, -⟩ := readResponse_ok_iff.mp hr'
      obtain ⟨-, rfl, -⟩ := submits_unique hf' hf2
      refine ⟨ch, u, ch', u', s1, (handleAssertion app.env (registrar app.env)
        (assertionArgs c' ch' u') s1).2, hs, ?_⟩
      rw [initialRegistrar_login]
      exact Prod.ext (conclude_success.mp h2) rfl

/-- They meet the hypotheses of `C82_login_above`. -/
example : ∃ (a : AttestationArgs) (b : AssertionArgs) (m n : Nat),
    HasInitialCounter app.env a.credential m ∧ HasCounter b.credential n ∧ (m ≠ 0 → m < n) := by
  obtain ⟨ch, u, ch', u', s1, s2, h1, h2⟩ := initial_calls (evs := [e1, e2]) login6_initial.1
    login6_initial.2 (form1 _ _) (form1 _ _)
  obtain ⟨m, n, h⟩ := C82_login_above (C82_repaired_registrar app.env) (between := []) (by simp) h1 h2
    rfl rfl
  exact ⟨_, _, m, n, h⟩

end WebAuthn.Flask.Run
