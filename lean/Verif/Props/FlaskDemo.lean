import Verif.Props.FlaskHonest
import Verif.Props.Demo
import Verif.Props.Base64
import Verif.Lemmas.PageJson

/-!
# A concrete run of the example application

It shows that the hypotheses of the theorems about the application can be met,
and that challenges are neither single use nor bound to the user (C51).
-/

namespace WebAuthn.Flask

open WebAuthn WebAuthn.Spec WebAuthn.Props WebAuthn.Spec.JsonGrammar
  WebAuthn.Base64

/-! ## The form that a browser sends -/

/-- A member with a base64 text (static/js of the example: `btoa`). -/
def b64Member (name : String) (b : Bytes) : String × List Char :=
  (name, Page.quote (b64encode b))

def responseMembers : Response → List (String × List Char)
  | .attestation cdj ob => [b64Member "clientDataJSON" cdj, b64Member "attestationObject" ob]
  | .assertion cdj raw sig handle =>
    [b64Member "clientDataJSON" cdj, b64Member "authenticatorData" raw, b64Member "signature" sig] ++
      (match handle with | none => [] | some h => [b64Member "userHandle" h])

def credentialText (c : Credential) : List Char :=
  Page.object [("id", Page.quote c.id), b64Member "rawId" c.rawId,
    ("response", Page.object (responseMembers c.response)), ("type", Page.quote c.type)]

def formOf (challengeID : String) (c : Credential) (username : String) : Form :=
  ⟨some challengeID, some (String.ofList (credentialText c)), some username⟩

def responseDict : Response → Dict
  | .attestation cdj ob =>
    [(.str "clientDataJSON", .str (b64encode cdj)), (.str "attestationObject", .str (b64encode ob))]
  | .assertion cdj raw sig handle =>
    [(.str "clientDataJSON", .str (b64encode cdj)), (.str "authenticatorData", .str (b64encode raw)),
      (.str "signature", .str (b64encode sig))] ++
      (match handle with | none => [] | some h => [(.str "userHandle", .str (b64encode h))])

def credentialDict (c : Credential) : Dict :=
  [(.str "id", .str c.id), (.str "rawId", .str (b64encode c.rawId)),
    (.str "response", .dict (responseDict c.response)), (.str "type", .str c.type)]

theorem response_value (n : Nat) (r : Response) :
    IsValue (n + 1) (Page.object (responseMembers r)) (.dict (responseDict r)) := by
  have s : ∀ m b, (b64Member m b).1 = m ∧ IsValue n (b64Member m b).2 (.str (b64encode b)) :=
    fun m b => ⟨rfl, Page.isValue_quote _ _⟩
  cases r with
  | attestation cdj ob =>
    exact Page.isValue_object (vs := [("clientDataJSON", .str (b64encode cdj)),
      ("attestationObject", .str (b64encode ob))]) (.cons (s _ _) (.cons (s _ _) .nil))
      (by simp)
  | assertion cdj raw sig handle =>
    cases handle with
    | none =>
      exact Page.isValue_object (vs := [("clientDataJSON", .str (b64encode cdj)),
        ("authenticatorData", .str (b64encode raw)), ("signature", .str (b64encode sig))])
        (.cons (s _ _) (.cons (s _ _) (.cons (s _ _) .nil))) (by simp)
    | some h =>
      exact Page.isValue_object (vs := [("clientDataJSON", .str (b64encode cdj)),
        ("authenticatorData", .str (b64encode raw)), ("signature", .str (b64encode sig)),
        ("userHandle", .str (b64encode h))])
        (.cons (s _ _) (.cons (s _ _) (.cons (s _ _) (.cons (s _ _) .nil)))) (by simp)

theorem credential_text (c : Credential) :
    JsonText (String.ofList (credentialText c)) (.dict (credentialDict c)) :=
  jsonText_of (Page.isValue_object (n := 99) (vs := [("id", .str c.id),
    ("rawId", .str (b64encode c.rawId)), ("response", .dict (responseDict c.response)),
    ("type", .str c.type)])
    (.cons ⟨rfl, Page.isValue_quote _ _⟩ (.cons ⟨rfl, Page.isValue_quote _ _⟩
      (.cons ⟨rfl, response_value 98 _⟩ (.cons ⟨rfl, Page.isValue_quote _ _⟩ .nil)))) (by simp))

theorem base64Text_encode (b : Bytes) : Base64Text (b64encode b) b :=
  b64decode_ok_iff.mp (b64decode_b64encode b)

theorem responseOf_dict (r : Response) : ResponseOf (responseDict r) r := by
  have lk : ∀ (d : Dict) n v, d.get? (.str n) = some v → Lookup d (.str n) v :=
    fun _ _ _ h => lookup_iff.mpr h
  cases r with
  | attestation cdj ob =>
    exact ⟨keysWithin_iff.mp rfl, ⟨_, lk _ _ _ rfl, base64Text_encode _⟩,
      ⟨_, lk _ _ _ rfl, base64Text_encode _⟩⟩
  | assertion cdj raw sig handle =>
    cases handle with
    | none =>
      exact ⟨keysWithin_iff.mp rfl, ⟨_, lk _ _ _ rfl, base64Text_encode _⟩,
        ⟨_, lk _ _ _ rfl, base64Text_encode _⟩, ⟨_, lk _ _ _ rfl, base64Text_encode _⟩,
        missing_iff.mpr rfl⟩
    | some h =>
      exact ⟨keysWithin_iff.mp rfl, ⟨_, lk _ _ _ rfl, base64Text_encode _⟩,
        ⟨_, lk _ _ _ rfl, base64Text_encode _⟩, ⟨_, lk _ _ _ rfl, base64Text_encode _⟩,
        ⟨_, lk _ _ _ rfl, base64Text_encode _⟩⟩

theorem submits_form {app : App} (json : JsonLaw app.env) {cid : String} {n : Nat}
    (hcid : app.rowId cid = some n) (c : Credential) (name : String) :
    Submits app (formOf cid c name) n c name :=
  ⟨cid, _, credentialDict c, rfl, hcid, rfl, json _ _ (credential_text c),
    ⟨keysWithin_iff.mp rfl, lookup_iff.mpr rfl, lookup_iff.mpr rfl,
      ⟨_, lookup_iff.mpr rfl, base64Text_encode _⟩, _, lookup_iff.mpr rfl, responseOf_dict _⟩, rfl⟩

/-! ## The run -/

namespace Run

/-- The application with toy cryptography. -/
def app : App :=
  ⟨Demo.env, fun s => if s = "1" then some 1 else if s = "2" then some 2 else if s = "3" then some 3 else none⟩

def handle1 : Bytes := List.replicate 64 0x11
def handle2 : Bytes := List.replicate 64 0x22
def challenge1 : Bytes := List.replicate 64 0xa1
def challenge2 : Bytes := List.replicate 64 0xa2

/-- Ada asks for a registration and gets challenge 1. -/
def e1 : Event := .registrationRequest (some "ada") handle1 challenge1 0

/-- Bob asks for a registration and gets challenge 2. -/
def e2 : Event := .registrationRequest (some "bob") handle2 challenge2 1000

theorem run1 : run app [e1] = ⟨[⟨1, "ada", handle1⟩], [], [⟨1, challenge1, 0, 1⟩]⟩ := rfl

theorem run2 : run app [e1, e2] = ⟨[⟨1, "ada", handle1⟩, ⟨2, "bob", handle2⟩], [],
    [⟨1, challenge1, 0, 1⟩, ⟨2, challenge2, 1000, 2⟩]⟩ := rfl

theorem issues1 : Issues app [] e1 1 challenge1 0 "ada" := by
  obtain ⟨v, hv, -⟩ := creation_reply 1 { name := "ada", id := handle1, displayName := "ada" } challenge1
  exact ⟨⟨_, v, hv⟩, Or.inl ⟨_, rfl⟩⟩

theorem issues2 : Issues app [e1] e2 2 challenge2 1000 "bob" := by
  obtain ⟨v, hv, -⟩ := creation_reply 2 { name := "bob", id := handle2, displayName := "bob" } challenge2
  exact ⟨⟨_, v, hv⟩, Or.inl ⟨_, rfl⟩⟩

/-! ### A registration response -/

def rpHash : Bytes := Demo.sha (utf8Encode "localhost")

/-- UP, AT set; counter 0. -/
def regAd : AuthData := ⟨rpHash, 0x41, 0, some Demo.attested, none⟩

def regRaw : Bytes :=
  rpHash ++ [0x41] ++ [0, 0, 0, 0] ++
    (List.replicate 16 0xaa ++ [0, 4] ++ Demo.credId ++ Demo.keyBytes) ++ []

theorem regRaw_enc : EncodedAuthData app.env regAd regRaw :=
  ⟨0x41, [0, 0, 0, 0], _, [], rfl, Demo.sha_length _, rfl, rfl, Demo.bigEndian_of rfl,
    ⟨by decide, [0, 4], Demo.key, Demo.keyBytes, rfl, rfl, rfl, Demo.bigEndian_of rfl, rfl, rfl,
      Demo.keyBytes_enc⟩, ⟨by decide, rfl⟩⟩

def attObj : Bytes := (Cbor.enc (.dict (Demo.objMap regRaw))).toOption.getD []

theorem regRaw_length : regRaw.length < 2 ^ 64 := by
  have : Demo.keyBytes.length = 77 := by decide
  simp [regRaw, rpHash, show ∀ b, (Demo.sha b).length = 32 from Demo.sha_length, this, Demo.credId]

theorem attObj_enc : EncodedNoneAttestation app.env regRaw attObj := by
  refine ⟨Demo.objMap regRaw, Demo.lookup_objMap rfl, Demo.lookup_objMap rfl, Demo.lookup_objMap rfl,
    Demo.objMap_plain _, ?_⟩
  obtain ⟨b, hb⟩ := Demo.objMap_enc regRaw_length
  show Cbor.enc _ = _
  rw [attObj, hb]
  rfl

theorem rpHash_enc {ad : AuthData} {raw : Bytes} (h : EncodedAuthData app.env ad raw)
    (hr : ad.rpIdHash = rpHash) : RpHashOk app.env raw "localhost" :=
  ⟨_, rfl, by rw [← (authDataOf_head (encodedAuthData_of Demo.codec h)).1, hr]; rfl⟩

/-- The client data of a ceremony with a challenge. -/
def clientData (type : String) (ch : Bytes) : Bytes :=
  utf8Encode (clientText type (urlBase64Encode ch) "http://localhost:5000")

def regCredential (ch : Bytes) : Credential :=
  { id := "wdLj9A", type := "public-key", rawId := Demo.credId,
    response := .attestation (clientData "webauthn.create" ch) attObj }

/-- Ada registers with challenge 1. -/
def e3 : Event := .registrationResponse (formOf "1" (regCredential challenge1) "ada") 5000

/-- Ada registers with the challenge of Bob. -/
def e3' : Event := .registrationResponse (formOf "2" (regCredential challenge2) "ada") 5000

theorem form1 (c : Credential) (name : String) : Submits app (formOf "1" c name) 1 c name :=
  submits_form Demo.json rfl c name

theorem form2 (c : Credential) (name : String) : Submits app (formOf "2" c name) 2 c name :=
  submits_form Demo.json rfl c name

theorem clientData_text (type : String) (ch : Bytes) :
    ClientDataText type (urlBase64Encode ch) "http://localhost:5000" none (clientData type ch) :=
  clientData_client rfl

theorem none_registered {id : Bytes} (pre : List Event) (e : Event) (name : String) (k : CPK)
    (h : Occurs [e1, e2] pre e) : ¬ Registers app pre e id name k := by
  rintro ⟨f, t, n, c, cdj, ob, o, raw, acd, rfl, -⟩
  obtain ⟨post, h⟩ := h
  have : Event.registrationResponse f t ∈ [e1, e2] := by rw [h]; simp
  simp [e1, e2] at this

def storedKey : Bytes := (coseKey Demo.env Demo.key).toOption.getD []

theorem storedKey_eq : coseKey app.env Demo.key = .ok storedKey := rfl

/-- The honest registration succeeds (an instance of `C56_registration`). -/
theorem reply3 : reply app [e1, e2] e3 = success := by
  refine C56_registration (app := app) Demo.codec Demo.json (pre := []) (e := e1)
    (c := regCredential challenge1)
    (cdj := clientData "webauthn.create" challenge1) (ob := attObj) (acd := Demo.attested)
    (k := Demo.key) ⟨[e2], rfl⟩ issues1 ?_ (form1 _ _) rfl (clientData_text _ _)
    (C38_base64url_encoding _).1 attObj_enc regRaw_enc ?_ ?_ storedKey_eq ?_ ?_ ?_
  · decide
  · rfl
  · rfl
  · exact rpHash_enc regRaw_enc rfl
  · exact Demo.flagSet_enc regRaw_enc (by decide)
  · exact none_registered

/-- The registration with the challenge of another user succeeds too. -/
theorem reply3' : reply app [e1, e2] e3' = success := by
  refine registration_accepted (app := app) Demo.codec Demo.json (u := ⟨1, "ada", handle1⟩) (uid := 2)
    (n := 2) (ch := challenge2) (t := 1000) (c := regCredential challenge2)
    (cdj := clientData "webauthn.create" challenge2) (ob := attObj) (acd := Demo.attested)
    (k := Demo.key) ?_ ?_ ?_ (form2 _ _) rfl (clientData_text _ _)
    (C38_base64url_encoding _).1 attObj_enc regRaw_enc ?_ ?_ storedKey_eq ?_ ?_ ?_
  · rw [run2]; simp
  · rw [run2]; simp
  · decide
  · rfl
  · rfl
  · exact rpHash_enc regRaw_enc rfl
  · exact Demo.flagSet_enc regRaw_enc (by decide)
  · exact none_registered

/-! ### An authentication response -/

/-- UP set. -/
def authAd (n : UInt8) : AuthData := ⟨rpHash, 0x01, n.toNat, none, none⟩

def authRaw (n : UInt8) : Bytes := rpHash ++ [0x01] ++ [0, 0, 0, n] ++ [] ++ []

theorem authRaw_enc (n : UInt8) : EncodedAuthData app.env (authAd n) (authRaw n) :=
  ⟨0x01, [0, 0, 0, n], [], [], rfl, Demo.sha_length _, rfl, rfl,
    Demo.bigEndian_of (by simp [beNat, authAd]), ⟨by decide, rfl⟩, ⟨by decide, rfl⟩⟩

def signature (n : UInt8) (ch : Bytes) : Bytes :=
  Demo.sign Demo.pubKey (authRaw n ++ Demo.sha (clientData "webauthn.get" ch))

theorem signature_ok (n : UInt8) (ch : Bytes) : SignedBy app.env Demo.key (signature n ch)
    (authRaw n ++ app.env.sha256 (clientData "webauthn.get" ch)) :=
  .ecdsa _ _ _ _ Demo.pubKey _ _ _ _ Demo.key_of rfl .es256 (Demo.check_sign Demo.pubKey _)

def authCredential (n : UInt8) (ch : Bytes) : Credential :=
  { id := "wdLj9A", type := "public-key", rawId := Demo.credId,
    response := .assertion (clientData "webauthn.get" ch) (authRaw n) (signature n ch) (some handle1) }

/-- Ada authenticates with challenge 1, which has been used. -/
def e4 : Event := .authenticationResponse (formOf "1" (authCredential 1 challenge1) "ada") 9000

theorem registers3 : Registers app [e1, e2] e3 Demo.credId "ada" Demo.key :=
  ⟨_, _, _, regCredential challenge1, _, _, ⟨regAd, .NONE, .none⟩, regRaw, Demo.attested, rfl, reply3,
    form1 _ _, rfl, rfl, by
      obtain ⟨d, h1, h2, h3, h4, h5⟩ := attObj_enc
      have := (Demo.codec).roundTrip h4 h5 []
      rw [List.append_nil] at this
      exact ⟨d, [], [], this, h3, encodedAuthData_of Demo.codec regRaw_enc, h1, h2, rfl, rfl⟩,
    rfl, rfl⟩

theorem none_authenticated {id : Bytes} (pre : List Event) (e : Event) (m : Int)
    (h : Occurs [e1, e2, e3] pre e) : ¬ Authenticates app pre e id m := by
  rintro ⟨f, t, n, c, name, k, rfl, -⟩
  obtain ⟨post, h⟩ := h
  have : Event.authenticationResponse f t ∈ [e1, e2, e3] := by rw [h]; simp
  simp [e1, e2, e3] at this

/-- The user table only grows. -/
theorem ada_stays (evs : List Event) :
    (⟨1, "ada", handle1⟩ : User) ∈ (run app ([e1, e2] ++ evs)).users := by
  obtain ⟨us, h⟩ := (run_prefix app [e1, e2] evs).1
  rw [h, run2]
  simp

/-- The honest authentication succeeds (an instance of `C56_authentication`). -/
theorem reply4 : reply app [e1, e2, e3] e4 = success := by
  refine C56_authentication (app := app) Demo.codec Demo.json (pre := []) (pre' := [e1, e2])
    (e := e1) (e' := e3) (c := authCredential 1 challenge1) (cdj := clientData "webauthn.get" challenge1)
    (raw := authRaw 1) (sig := signature 1 challenge1) (handle := some handle1) (ad := authAd 1)
    (k := Demo.key) ⟨[e2, e3], rfl⟩ issues1 ?_ ⟨[], rfl⟩ registers3 (form1 _ _) rfl
    (clientData_text _ _) (C38_base64url_encoding _).1 ?_ (authRaw_enc 1) ?_ ?_
    (signature_ok 1 challenge1) ?_
  · decide
  · intro h hh
    obtain rfl := Option.some.inj hh
    exact ⟨_, ada_stays [e3], rfl, rfl⟩
  · exact rpHash_enc (authRaw_enc 1) rfl
  · exact Demo.flagSet_enc (authRaw_enc 1) (by decide)
  · exact fun pre e m h h' => absurd h' (none_authenticated pre e m h)

/-- Ada authenticates again, with the counter 2. -/
def e5 : Event := .authenticationResponse (formOf "1" (authCredential 2 challenge1) "ada") 9500

theorem counter_of (n : UInt8) (ch : Bytes) : HasCounter (authCredential n ch) n.toNat :=
  ⟨_, _, _, _, rfl, (authDataOf_head (encodedAuthData_of Demo.codec (authRaw_enc n))).2.2.2⟩

theorem authenticated4 (pre : List Event) (e : Event) (m : Int)
    (h : Occurs [e1, e2, e3, e4] pre e) (ha : Authenticates app pre e Demo.credId m) : m = 1 := by
  obtain ⟨f, t, n, c, name, k, rfl, -, hf, -, rfl, hc⟩ := ha
  obtain ⟨post, h⟩ := h
  have h : Event.authenticationResponse f t ∈ [e1, e2, e3, e4] := by rw [h]; simp
  simp only [e1, e2, e3, e4, List.mem_cons, List.not_mem_nil, or_false, reduceCtorEq, false_or] at h
  cases h
  obtain ⟨-, rfl, -⟩ := submits_unique hf (form1 _ _)
  rw [hasCounter_unique hc (counter_of 1 challenge1)]
  rfl

theorem reply5 : reply app [e1, e2, e3, e4] e5 = success := by
  refine C56_authentication (app := app) Demo.codec Demo.json (pre := []) (pre' := [e1, e2])
    (e := e1) (e' := e3) (c := authCredential 2 challenge1)
    (cdj := clientData "webauthn.get" challenge1)
    (raw := authRaw 2) (sig := signature 2 challenge1) (handle := some handle1) (ad := authAd 2)
    (k := Demo.key) ⟨[e2, e3, e4], rfl⟩ issues1 ?_ ⟨[e4], rfl⟩ registers3 (form1 _ _) rfl
    (clientData_text _ _) (C38_base64url_encoding _).1 ?_ (authRaw_enc 2) ?_ ?_
    (signature_ok 2 challenge1) ?_
  · decide
  · intro h hh
    obtain rfl := Option.some.inj hh
    exact ⟨_, ada_stays [e3, e4], rfl, rfl⟩
  · exact rpHash_enc (authRaw_enc 2) rfl
  · exact Demo.flagSet_enc (authRaw_enc 2) (by decide)
  · intro pre e m h h'
    rw [authenticated4 pre e m h h']
    decide

end Run

/-- C49 on the run. -/
example : ∃ n c name pre e k cdj raw sig handle,
    Submits Run.app (formOf "1" (Run.authCredential 1 Run.challenge1) "ada") n c name ∧
    Occurs [Run.e1, Run.e2, Run.e3] pre e ∧ Registers Run.app pre e c.rawId name k ∧
    c.response = .assertion cdj raw sig handle ∧
    SignedBy Demo.env k sig (raw ++ Demo.env.sha256 cdj) :=
  C49_login (app := Run.app) Demo.codec Run.reply4

example : ∃ n c name cdj raw sig handle d text,
    Submits Run.app (formOf "1" (Run.authCredential 1 Run.challenge1) "ada") n c name ∧
    c.response = .assertion cdj raw sig handle ∧ ClientJson Demo.env cdj d ∧
    Lookup d (.str "type") (.str "webauthn.get") ∧ Lookup d (.str "origin") (.str text) ∧
    OriginOf Demo.env text ⟨"http", "localhost:5000", 5000⟩ ∧
    RpHashOk Demo.env raw "localhost" ∧ FlagSet raw 0 :=
  C49_authentication_scope (app := Run.app) Run.reply4

example : ∃ n c name cdj ob o raw d text,
    Submits Run.app (formOf "1" (Run.regCredential Run.challenge1) "ada") n c name ∧
    c.response = .attestation cdj ob ∧ ClientJson Demo.env cdj d ∧
    Lookup d (.str "type") (.str "webauthn.create") ∧ Lookup d (.str "origin") (.str text) ∧
    OriginOf Demo.env text ⟨"http", "localhost:5000", 5000⟩ ∧
    AttObjOf Demo.env ob o raw ∧ RpHashOk Demo.env raw "localhost" ∧ FlagSet raw 0 :=
  C49_registration_scope (app := Run.app) Run.reply3

/-- C50 on the run. -/
example : ∃ pre e' ch t' name' d text, Occurs [Run.e1, Run.e2] pre e' ∧
    Issues Run.app pre e' 1 ch t' name' ∧ 5000 - t' ≤ 60000 ∧
    ClientJson Demo.env (Run.regCredential Run.challenge1).response.clientDataJSON d ∧
    Lookup d (.str "challenge") (.str text) ∧ Base64UrlText text ch :=
  C50_fresh_challenge (app := Run.app) ⟨Run.reply3, _, Or.inl rfl, Run.form1 _ _⟩

/-- C47 on the run. -/
example : ∃ m m', HasCounter (Run.authCredential 1 Run.challenge1) m ∧
    HasCounter (Run.authCredential 2 Run.challenge1) m' ∧ m < m' :=
  C47_flask_counters (app := Run.app) (pre := [Run.e1, Run.e2, Run.e3]) (mid := []) Run.reply4
    (Run.form1 _ _) Run.reply5 (Run.form1 _ _) rfl

/-- C51, the part that holds, on the run. -/
example : ¬ (Demo.credId = Demo.credId ∧ (Run.authCredential 1 Run.challenge1).response =
    (Run.authCredential 2 Run.challenge1).response) :=
  C51_no_replay_partial (app := Run.app) (pre := [Run.e1, Run.e2, Run.e3]) (mid := [])
    ⟨Run.reply4, _, Or.inr rfl, Run.form1 _ _⟩ ⟨Run.reply5, _, Or.inr rfl, Run.form1 _ _⟩

/-- C51 is false of the example application: a challenge leads to success twice. -/
theorem C51_single_use_refuted : ∃ app, CodecLaws app.env ∧ JsonLaw app.env ∧
    ¬ SingleUse (reply app) app :=
  ⟨Run.app, Demo.codec, Demo.json, fun h =>
    h [Run.e1, Run.e2] Run.e3 [] Run.e4 5000 9000 1 _ _ "ada" "ada"
      ⟨Run.reply3, _, Or.inl rfl, Run.form1 _ _⟩ ⟨Run.reply4, _, Or.inr rfl, Run.form1 _ _⟩⟩

/-- C51 is false of the example application: a challenge leads to success for a
user it was not issued to. -/
theorem C51_user_bound_refuted : ∃ app, CodecLaws app.env ∧ JsonLaw app.env ∧
    ¬ UserBound (reply app) app :=
  ⟨Run.app, Demo.codec, Demo.json, fun h =>
    absurd (h [Run.e1, Run.e2] Run.e3' 5000 2 _ "ada" [Run.e1] Run.e2 _ _ "bob"
      ⟨Run.reply3', _, Or.inl rfl, Run.form2 _ _⟩ ⟨[], rfl⟩ Run.issues2) (by decide)⟩

end WebAuthn.Flask
