import Verif.Props.FlaskOwned
import Verif.Props.FlaskThreadsDemo

/-!
# Approvals on the concrete runs (C65, C66, C67)

They show that the hypotheses can be met, that an approval is good for two logins when
requests overlap, and that a stranger can log in under the name of another.
-/

namespace WebAuthn.Flask

open WebAuthn WebAuthn.Spec WebAuthn.Props

namespace Run

/-! ## Ada approves two logins -/

def approval (n : UInt8) : Approval :=
  ⟨"http://localhost:5000", "webauthn.get", challenge1, clientData "webauthn.get" challenge1, authRaw n⟩

def acts (a : Approval) : Prop := a = approval 1 ∨ a = approval 2

theorem sent_of {f : Form} {t : Int} {n : Nat} {c : Credential} {name : String} {cdj raw sig : Bytes}
    {handle : Option Bytes} (he : Event.authenticationResponse f t = e4 ∨
      Event.authenticationResponse f t = e5)
    (hf : Submits app f n c name) (hc : c.response = .assertion cdj raw sig handle) :
    ∃ a, acts a ∧ cdj = a.cdj ∧ raw = a.raw := by
  rcases he with he | he
  · simp only [e4, Event.authenticationResponse.injEq] at he
    obtain ⟨rfl, -⟩ := he
    obtain ⟨-, rfl, -⟩ := submits_unique hf (form1 _ _)
    simp only [authCredential, Response.assertion.injEq] at hc
    refine ⟨approval 1, Or.inl rfl, ?_, ?_⟩
    · simp only [approval, hc.1]
    · simp only [approval, hc.2.1]
  · simp only [e5, Event.authenticationResponse.injEq] at he
    obtain ⟨rfl, -⟩ := he
    obtain ⟨-, rfl, -⟩ := submits_unique hf (form1 _ _)
    simp only [authCredential, Response.assertion.injEq] at hc
    refine ⟨approval 2, Or.inr rfl, ?_, ?_⟩
    · simp only [approval, hc.1]
    · simp only [approval, hc.2.1]

theorem holder_of {sent : Bytes → Bytes → Bytes → Prop}
    (h : ∀ cdj raw sig, sent cdj raw sig → ∃ a, acts a ∧ cdj = a.cdj ∧ raw = a.raw) :
    Holder app.env Demo.key sent acts where
  browser := by
    rintro a (rfl | rfl) <;> simp only [approval] <;>
      exact ⟨_, (C38_base64url_encoding _).1, clientData_text "webauthn.get" challenge1⟩
  unforged := by
    intro cdj raw sig hs _
    obtain ⟨a, ha, e1, e2⟩ := h cdj raw sig hs
    exact ⟨a, ha, by rw [e1, e2]⟩
  noCollision := by
    intro cdj raw sig a hs ha _
    obtain ⟨b, hb, e1, -⟩ := h cdj raw sig hs
    rw [e1]
    rcases ha with rfl | rfl <;> rcases hb with rfl | rfl <;> simp only [approval]
  digest := Demo.sha_length

theorem holder5 : Holder app.env Demo.key (Sent app [e1, e2, e3, e4, e5]) acts := by
  refine holder_of ?_
  rintro cdj raw sig ⟨f, t, n, c, name, handle, hm, hf, hc⟩
  simp only [e1, e2, e3, List.mem_cons, List.not_mem_nil, or_false, reduceCtorEq, false_or] at hm
  exact sent_of hm hf hc

theorem holder4 : Holder app.env Demo.key (Sent app ([e1, e2, e3] ++ [e4])) acts := by
  refine holder_of ?_
  rintro cdj raw sig ⟨f, t, n, c, name, handle, hm, hf, hc⟩
  simp only [e1, e2, e3, List.cons_append, List.nil_append, List.mem_cons, List.not_mem_nil, or_false,
    reduceCtorEq, false_or] at hm
  exact sent_of (Or.inl hm) hf hc

/-! ## A page that passes for the application -/

def evilData : Bytes :=
  utf8Encode (clientText "webauthn.get" (urlBase64Encode challenge1) "https://example.com")

theorem evil_text : ClientDataText "webauthn.get" (urlBase64Encode challenge1) "https://example.com" none
    evilData := clientData_client rfl

def evilSignature : Bytes := Demo.sign Demo.pubKey (authRaw 1 ++ Demo.sha evilData)

def evilCredential : Credential :=
  { id := "wdLj9A", type := "public-key", rawId := Demo.credId,
    response := .assertion evilData (authRaw 1) evilSignature (some handle1) }

/-- The page passes on the challenge and submits what Ada approved. -/
def evil : Event := .authenticationResponse (formOf "1" evilCredential "ada") 9000

def evilApproval : Approval :=
  ⟨"https://example.com", "webauthn.get", challenge1, evilData, authRaw 1⟩

theorem evil_holder :
    Holder app.env Demo.key (Sent app ([e1, e2, e3] ++ [evil])) (· = evilApproval) where
  browser := by
    rintro a rfl
    simp only [evilApproval]
    exact ⟨_, (C38_base64url_encoding _).1, evil_text⟩
  unforged := by
    rintro cdj raw sig ⟨f, t, n, c, name, handle, hm, hf, hc⟩ _
    simp only [e1, e2, e3, evil, List.cons_append, List.nil_append, List.mem_cons, List.not_mem_nil,
      or_false, reduceCtorEq, false_or, Event.authenticationResponse.injEq] at hm
    obtain ⟨rfl, -⟩ := hm
    obtain ⟨-, rfl, -⟩ := submits_unique hf (form1 _ _)
    simp only [evilCredential, Response.assertion.injEq] at hc
    obtain ⟨rfl, rfl, -, -⟩ := hc
    exact ⟨evilApproval, rfl, by simp only [evilApproval]⟩
  noCollision := by
    rintro cdj raw sig a ⟨f, t, n, c, name, handle, hm, hf, hc⟩ rfl _
    simp only [e1, e2, e3, evil, List.cons_append, List.nil_append, List.mem_cons, List.not_mem_nil,
      or_false, reduceCtorEq, false_or, Event.authenticationResponse.injEq] at hm
    obtain ⟨rfl, -⟩ := hm
    obtain ⟨-, rfl, -⟩ := submits_unique hf (form1 _ _)
    simp only [evilCredential, Response.assertion.injEq] at hc
    simp only [evilApproval, hc.1]
  digest := Demo.sha_length

/-- The signature is good. -/
theorem evil_signed : SignedBy app.env Demo.key evilSignature (authRaw 1 ++ app.env.sha256 evilData) :=
  .ecdsa _ _ _ _ Demo.pubKey _ _ _ _ Demo.key_of rfl .es256 (Demo.check_sign Demo.pubKey _)

theorem evil_origin :
    ¬ OriginOf app.env "https://example.com" ⟨"http", "localhost:5000", 5000⟩ := by
  intro h
  have := originOf_unique h (originOf_serialises serialises_example')
  simp at this

end Run

/-- C65 on the run. -/
example : "ada" = "ada" ∧ ∃ a pre' e' ch t' name'', Run.acts a ∧
    Approves Run.app.env a (Run.authCredential 1 Run.challenge1) ch ∧
    Occurs [Run.e1, Run.e2, Run.e3] pre' e' ∧ Issues Run.app pre' e' 1 ch t' name'' ∧
    9000 - t' ≤ 60000 :=
  C65_login (app := Run.app) Demo.codec Demo.json Run.holder4 ⟨[], rfl⟩ Run.registers3 Run.reply4
    (Run.form1 _ _)

example : OneEach Run.app.env Run.acts (LoginAt Run.app [Run.e1, Run.e2, Run.e3, Run.e4, Run.e5])
    Demo.credId :=
  C67_one_login_partial (app := Run.app) Demo.codec Demo.json Run.holder5 ⟨_, rfl⟩ Run.registers3

/-- Both logins of the run are covered. -/
example : LoginAt Run.app [Run.e1, Run.e2, Run.e3, Run.e4, Run.e5] (Run.authCredential 1 Run.challenge1) 3 ∧
    LoginAt Run.app [Run.e1, Run.e2, Run.e3, Run.e4, Run.e5] (Run.authCredential 2 Run.challenge1) 4 :=
  ⟨⟨_, _, _, _, rfl, Run.reply4, Run.form1 _ _⟩, ⟨_, _, _, _, rfl, Run.reply5, Run.form1 _ _⟩⟩

/-- The page that passes for the application gets nothing. -/
example : reply Run.app [Run.e1, Run.e2, Run.e3] Run.evil ≠ success :=
  C65_phishing (app := Run.app) Demo.codec Demo.json Run.evil_holder ⟨[], rfl⟩ Run.registers3
    (Run.form1 _ _) (by rintro a rfl; exact Run.evil_origin)

/-- The credential of Ada was registered for nobody else. -/
example (pre : List Event) (e : Event) (name : String) (k : CPK)
    (ho : Occurs [Run.e1, Run.e2, Run.e3] pre e) (h : Registers Run.app pre e Demo.credId name k) :
    "ada" = name ∧ Demo.key = k :=
  (C49_registered_once (app := Run.app) ⟨[], rfl⟩ Run.registers3 ho h).2.2

/-! ## Requests in progress at the same time -/

namespace Threads

open Run

theorem holder : Holder app.env Demo.key (SentIn app reqs) acts := by
  refine holder_of ?_
  rintro cdj raw sig ⟨i, f, t, n, c, name, handle, hi, hf, hc⟩
  refine sent_of (t := t) ?_ hf hc
  match i with
  | 2 => exact Or.inl hi.symm
  | 3 | 4 => exact Or.inr hi.symm
  | 0 => simp [reqs, e1] at hi
  | 1 => simp [reqs, e3] at hi
  | 5 | 6 | 7 => simp [reqs] at hi
  | n + 8 => simp [reqs] at hi

end Threads

open Threads

example : "ada" = "ada" ∧ ∃ a pre j' ch t name'', Run.acts a ∧
    Approves Run.app.env a (Run.authCredential 2 Run.challenge1) ch ∧
    Before Run.app Threads.reqs sched1 3 pre ∧ IssuedAt Run.app Threads.reqs pre j' 1 ch t name'' ∧
    9500 - t ≤ 60000 :=
  C65_overlapping (app := Run.app) Demo.codec Demo.json Threads.holder
    (registered1 (by decide) (by decide)) rfl both.1 (Run.form1 _ _)

/-- C67 is false of overlapping requests: one approval is good for two logins. -/
theorem C67_overlapping_refuted : ∃ app, CodecLaws app.env ∧ JsonLaw app.env ∧
    ¬ ∀ (reqs : Nat → Event) (sched : List Nat) j id name k acts,
      Holder app.env k (SentIn app reqs) acts → RegisteredAt app reqs sched j id name k →
      OneEach app.env acts (LoginIn app reqs sched) id := by
  refine ⟨Run.app, Demo.codec, Demo.json, fun h => ?_⟩
  obtain ⟨approval, h1, h2⟩ := h Threads.reqs sched1 1 Demo.credId "ada" Demo.key Run.acts Threads.holder
    (registered1 (by decide) (by decide))
  have l3 : LoginIn Run.app Threads.reqs sched1 (Run.authCredential 2 Run.challenge1) 3 :=
    ⟨_, _, _, _, rfl, both.1, Run.form1 _ _⟩
  have l4 : LoginIn Run.app Threads.reqs sched1 (Run.authCredential 2 Run.challenge1) 4 :=
    ⟨_, _, _, _, rfl, both.2, Run.form1 _ _⟩
  have key : ∀ i, LoginIn Run.app Threads.reqs sched1 (Run.authCredential 2 Run.challenge1) i →
      approval i = some (Run.approval 2) := by
    intro i hi
    obtain ⟨a, ch, e1, e2, e3⟩ := h1 i _ hi rfl
    rw [e1]
    rcases e2 with rfl | rfl
    · obtain ⟨sig, handle, e⟩ := e3.response
      simp only [Run.authCredential, Run.approval, Response.assertion.injEq, Run.authRaw] at e
      simp at e
    · rfl
  exact absurd (h2 3 4 _ _ l3 rfl l4 rfl ((key 3 l3).trans (key 4 l4).symm)) (by decide)

/-! ## A stranger -/

namespace Eve

open Run

def x : Bytes := List.replicate 31 8 ++ [12]

def keyMap : Dict :=
  [(.int 1, .int 2), (.int 3, .int (-7)), (.int (-1), .int 1), (.int (-2), .bytes x),
   (.int (-3), .bytes Demo.y)]

def key : CPK := .ec2 { kty := .value .EC2, alg := some (.value .ES256) } x Demo.y (.value .P_256)

theorem lookup_keyMap {n : Int} {v : PyVal} (h : keyMap.get? (.int n) = some v) :
    Lookup keyMap (.int n) v := lookup_iff.mpr h

theorem keyMap_key : CoseKeyOf keyMap key := by
  refine ⟨⟨⟨.int 2, lookup_keyMap rfl, Or.inl ⟨.EC2, rfl, rfl⟩⟩, ?_,
    ⟨_, .int (-7), rfl, lookup_keyMap rfl, Or.inl ⟨.ES256, rfl, rfl⟩⟩, ?_, ?_⟩, rfl,
    ⟨.int 1, lookup_keyMap rfl, Or.inl ⟨.P_256, rfl, rfl⟩⟩, Or.inl rfl, lookup_keyMap rfl,
    lookup_keyMap rfl, by decide, by decide⟩
  · exact Or.inl (absent_iff.mpr rfl)
  · exact Or.inl (absent_iff.mpr rfl)
  · exact Or.inl (absent_iff.mpr rfl)

theorem keyMap_plain : Plain (.dict keyMap) := by
  refine .dict _ ?_ (by simp [keyMap]) ?_
  · intro kv hkv
    simp only [keyMap, List.mem_cons, List.not_mem_nil, or_false] at hkv
    rcases hkv with rfl | rfl | rfl | rfl | rfl <;> exact Or.inl ⟨_, rfl⟩
  · intro kv hkv
    simp only [keyMap, List.mem_cons, List.not_mem_nil, or_false] at hkv
    rcases hkv with rfl | rfl | rfl | rfl | rfl
    · exact .int _
    · exact .int _
    · exact .int _
    · exact .bytes _
    · exact .bytes _

def keyBytes : Bytes := (Cbor.enc (.dict keyMap)).toOption.getD []

theorem keyBytes_enc : EncodedKey Demo.env key keyBytes :=
  ⟨keyMap, keyMap_key, ⟨rfl, Or.inl rfl, _, rfl, Or.inl rfl⟩, keyMap_plain, rfl⟩

def credId : Bytes := [0xe1, 0xe2]

def attested : AttestedCredentialData := ⟨List.replicate 16 0xaa, 2, credId, some key⟩

def regAd : AuthData := ⟨rpHash, 0x41, 0, some attested, none⟩

def regRaw : Bytes :=
  rpHash ++ [0x41] ++ [0, 0, 0, 0] ++ (List.replicate 16 0xaa ++ [0, 2] ++ credId ++ keyBytes) ++ []

theorem regRaw_enc : EncodedAuthData app.env regAd regRaw :=
  ⟨0x41, [0, 0, 0, 0], _, [], rfl, Demo.sha_length _, rfl, rfl, Demo.bigEndian_of rfl,
    ⟨by decide, [0, 2], key, keyBytes, rfl, rfl, rfl, Demo.bigEndian_of rfl, rfl, rfl,
      keyBytes_enc⟩, ⟨by decide, rfl⟩⟩

def attObj : Bytes := (Cbor.enc (.dict (Demo.objMap regRaw))).toOption.getD []

theorem regRaw_length : regRaw.length < 2 ^ 64 := by
  have : keyBytes.length = 77 := by decide
  simp [regRaw, rpHash, show ∀ b, (Demo.sha b).length = 32 from Demo.sha_length, this, credId]

theorem attObj_enc : EncodedNoneAttestation app.env regRaw attObj := by
  refine ⟨Demo.objMap regRaw, Demo.lookup_objMap rfl, Demo.lookup_objMap rfl, Demo.lookup_objMap rfl,
    Demo.objMap_plain _, ?_⟩
  obtain ⟨b, hb⟩ := Demo.objMap_enc regRaw_length
  show Cbor.enc _ = _
  rw [attObj, hb]
  rfl

def regCredential : Credential :=
  { id := "4eI", type := "public-key", rawId := credId,
    response := .attestation (clientData "webauthn.create" challenge2) attObj }

/-- Eve asks for a registration under the name of Ada, and gets challenge 2. -/
def e2 : Event := .registrationRequest (some "ada") handle2 challenge2 1000

/-- Eve registers a credential under the name of Ada. -/
def e6 : Event := .registrationResponse (formOf "2" regCredential "ada") 6000

theorem run2 : run app [e1, e2] = ⟨[⟨1, "ada", handle1⟩], [],
    [⟨1, challenge1, 0, 1⟩, ⟨2, challenge2, 1000, 1⟩]⟩ := rfl

theorem issues2 : Issues app [e1] e2 2 challenge2 1000 "ada" := by
  obtain ⟨v, hv, -⟩ := creation_reply 2 { name := "ada", id := handle1, displayName := "ada" } challenge2
  exact ⟨⟨_, v, hv⟩, Or.inl ⟨_, rfl⟩⟩

theorem none_registered {id : Bytes} (pre : List Event) (e : Event) (name : String) (k : CPK)
    (h : Occurs [e1, e2] pre e) : ¬ Registers app pre e id name k := by
  rintro ⟨f, t, n, c, cdj, ob, o, raw, acd, rfl, -⟩
  obtain ⟨post, h⟩ := h
  have : Event.registrationResponse f t ∈ [e1, e2] := by rw [h]; simp
  simp [e1, e2] at this

/-- Ada registers. -/
theorem reply3 : reply app [e1, e2] e3 = success := by
  refine C56_registration (app := app) Demo.codec Demo.json (pre := []) (e := e1)
    (c := Run.regCredential challenge1)
    (cdj := clientData "webauthn.create" challenge1) (ob := Run.attObj) (acd := Demo.attested)
    (k := Demo.key) ⟨[e2], rfl⟩ issues1 ?_ (form1 _ _) rfl (clientData_text _ _)
    (C38_base64url_encoding _).1 Run.attObj_enc Run.regRaw_enc ?_ ?_ storedKey_eq ?_ ?_ ?_
  · decide
  · rfl
  · rfl
  · exact rpHash_enc Run.regRaw_enc rfl
  · exact Demo.flagSet_enc Run.regRaw_enc (by decide)
  · exact none_registered

theorem registers3 : Registers app [e1, e2] e3 Demo.credId "ada" Demo.key :=
  ⟨_, _, _, Run.regCredential challenge1, _, _, ⟨Run.regAd, .NONE, .none⟩, Run.regRaw, Demo.attested, rfl,
    reply3, form1 _ _, rfl, rfl, by
      obtain ⟨d, h1, h2, h3, h4, h5⟩ := Run.attObj_enc
      have := (Demo.codec).roundTrip h4 h5 []
      rw [List.append_nil] at this
      exact ⟨d, [], [], this, h3, encodedAuthData_of Demo.codec Run.regRaw_enc, h1, h2, rfl, rfl⟩,
    rfl, rfl⟩

theorem registered3 (pre : List Event) (e : Event) (name : String) (k : CPK)
    (h : Occurs [e1, e2, e3] pre e) : ¬ Registers app pre e credId name k := by
  intro hr
  rcases occurs_snoc_cases (evs := [e1, e2]) h with h | ⟨rfl, rfl⟩
  · exact none_registered pre e name k h hr
  · exact absurd (registers_unique hr registers3).1 (by decide)

def storedKey : Bytes := (coseKey Demo.env key).toOption.getD []

theorem storedKey_eq : coseKey app.env key = .ok storedKey := rfl

theorem reply6 : reply app [e1, e2, e3] e6 = success := by
  refine C56_registration (app := app) Demo.codec Demo.json (pre := [e1]) (e := e2)
    (c := regCredential) (cdj := clientData "webauthn.create" challenge2) (ob := attObj)
    (acd := attested) (k := key) ⟨[e3], rfl⟩ issues2 ?_ (form2 _ _) rfl (clientData_text _ _)
    (C38_base64url_encoding _).1 attObj_enc regRaw_enc ?_ ?_ storedKey_eq ?_ ?_ ?_
  · decide
  · rfl
  · rfl
  · exact rpHash_enc regRaw_enc rfl
  · exact Demo.flagSet_enc regRaw_enc (by decide)
  · exact registered3

theorem registers6 : Registers app [e1, e2, e3] e6 credId "ada" key :=
  ⟨_, _, _, regCredential, _, _, ⟨regAd, .NONE, .none⟩, regRaw, attested, rfl, reply6, form2 _ _, rfl, rfl,
    by
      obtain ⟨d, h1, h2, h3, h4, h5⟩ := attObj_enc
      have := (Demo.codec).roundTrip h4 h5 []
      rw [List.append_nil] at this
      exact ⟨d, [], [], this, h3, encodedAuthData_of Demo.codec regRaw_enc, h1, h2, rfl, rfl⟩,
    rfl, rfl⟩

def pubKey : CryptoKey := .ec .SECP256R1 (beNat x) (beNat Demo.y)

theorem key_of : KeyOf Demo.env key pubKey :=
  .ec2 _ _ _ _ _ _ _ .p256 (bigEndian_beNat _) (bigEndian_beNat _) (by decide)

def signature : Bytes := Demo.sign pubKey (authRaw 1 ++ Demo.sha (clientData "webauthn.get" challenge2))

theorem signature_ok : SignedBy app.env key signature
    (authRaw 1 ++ app.env.sha256 (clientData "webauthn.get" challenge2)) :=
  .ecdsa _ _ _ _ pubKey _ _ _ _ key_of rfl .es256 (Demo.check_sign pubKey _)

def authCredential : Credential :=
  { id := "4eI", type := "public-key", rawId := credId,
    response := .assertion (clientData "webauthn.get" challenge2) (authRaw 1) signature none }

/-- Eve logs in as Ada. -/
def e7 : Event := .authenticationResponse (formOf "2" authCredential "ada") 9000

theorem none_authenticated {id : Bytes} (pre : List Event) (e : Event) (m : Int)
    (h : Occurs [e1, e2, e3, e6] pre e) : ¬ Authenticates app pre e id m := by
  rintro ⟨f, t, n, c, name, k, rfl, -⟩
  obtain ⟨post, h⟩ := h
  have : Event.authenticationResponse f t ∈ [e1, e2, e3, e6] := by rw [h]; simp
  simp [e1, e2, e3, e6] at this

theorem reply7 : reply app [e1, e2, e3, e6] e7 = success := by
  refine C56_authentication (app := app) Demo.codec Demo.json (pre := [e1]) (pre' := [e1, e2, e3])
    (e := e2) (e' := e6) (c := authCredential) (cdj := clientData "webauthn.get" challenge2)
    (raw := authRaw 1) (sig := signature) (handle := none) (ad := authAd 1)
    (k := key) ⟨[e3, e6], rfl⟩ issues2 ?_ ⟨[], rfl⟩ registers6 (form2 _ _) rfl
    (clientData_text _ _) (C38_base64url_encoding _).1 ?_ (authRaw_enc 1) ?_ ?_ signature_ok ?_
  · decide
  · intro h hh
    cases hh
  · exact rpHash_enc (authRaw_enc 1) rfl
  · exact Demo.flagSet_enc (authRaw_enc 1) (by decide)
  · exact fun pre e m h h' => absurd h' (none_authenticated pre e m h)

/-- The signature is not by the key of Ada. -/
theorem not_signed (data : Bytes) : ¬ SignedBy app.env Demo.key signature data := by
  intro h
  cases h with
  | ecdsa _ _ _ _ pk alg hash _ _ h1 h2 h3 h4 =>
    cases h1 with
    | ec2 _ _ _ _ c nx ny e1 e2 e3 e4 =>
      rw [bigEndian_iff] at e2 e3
      subst e2 e3
      rw [show app.env = Demo.env from rfl, Demo.ecdsaVerify_eq] at h4
      unfold Demo.check at h4
      split at h4
      · rename_i he
        simp only [signature, pubKey, Demo.sign] at he
        have := congrArg (List.take 4) he
        simp only [List.append_assoc] at this
        rw [List.take_left' (Cbor.toBE_length _ _), List.take_left' (Cbor.toBE_length _ _)] at this
        exact absurd this (by decide)
      · cases h4

/-- Ada approved nothing. -/
theorem holder : Holder app.env Demo.key (Sent app ([e1, e2, e3, e6] ++ [e7])) (fun _ => False) where
  browser := by simp
  unforged := by
    rintro cdj raw sig ⟨f, t, n, c, name, handle, hm, hf, hc⟩ hs
    simp only [e1, e2, e3, e6, e7, List.cons_append, List.nil_append, List.mem_cons, List.not_mem_nil,
      or_false, reduceCtorEq, false_or, Event.authenticationResponse.injEq] at hm
    obtain ⟨rfl, -⟩ := hm
    obtain ⟨-, rfl, -⟩ := submits_unique hf (form2 _ _)
    simp only [authCredential, Response.assertion.injEq] at hc
    rw [← hc.2.2.1] at hs
    exact absurd hs (not_signed _)
  noCollision := by simp
  digest := Demo.sha_length

end Eve

/-- C66 is false of the application: Eve registers a credential under the name of Ada and
logs in as Ada, who approved nothing. -/
theorem C66_owner_only_refuted : ∃ app, CodecLaws app.env ∧ JsonLaw app.env ∧
    ¬ OwnerOnly (reply app) app := by
  refine ⟨Run.app, Demo.codec, Demo.json, fun h => ?_⟩
  obtain ⟨a, _, ha, -⟩ := h [Run.e1, Eve.e2, Run.e3, Eve.e6] [Run.e1, Eve.e2] Run.e3 Demo.credId "ada"
    Demo.key (fun _ => False) _ 9000 2 Eve.authCredential ⟨[Eve.e6], rfl⟩ Eve.registers3
    (fun pre e id k ho => Eve.none_registered pre e "ada" k ho) Eve.holder Eve.reply7 (Run.form2 _ _)
  exact ha

/-- Without Eve, C66 holds of the run. -/
example : ∃ a ch, Run.acts a ∧ Approves Run.app.env a (Run.authCredential 1 Run.challenge1) ch := by
  refine C66_owner_only_partial (app := Run.app) Demo.codec Demo.json Run.holder4 ?_ Run.reply4
    (Run.form1 _ _)
  intro pre e id k ho hr
  rcases occurs_snoc_cases (evs := [Run.e1, Run.e2]) ho with h | ⟨rfl, rfl⟩
  · exact absurd hr (Run.none_registered pre e "ada" k h)
  · exact (registers_unique hr Run.registers3).2.2

/-! ## The repaired application on the runs -/

theorem owned_issues1 : IssuesBy (ownedReply Run.app) [] Run.e1 1 Run.challenge1 0 "ada" := Run.issues1

theorem owned_none_registered {id : Bytes} (pre : List Event) (e : Event) (name : String) (k : CPK)
    (h : Occurs [Run.e1, Eve.e2] pre e) :
    ¬ RegistersBy (ownedReply Run.app) Run.app pre e id name k := by
  rintro ⟨f, t, n, c, cdj, ob, o, raw, acd, rfl, -⟩
  obtain ⟨post, h⟩ := h
  have : Event.registrationResponse f t ∈ [Run.e1, Eve.e2] := by rw [h]; simp
  simp [Run.e1, Eve.e2] at this

/-- Ada registers. -/
theorem owned_reply3 : ownedReply Run.app [Run.e1, Eve.e2] Run.e3 = success := by
  refine C66_repaired_registration (app := Run.app) Demo.codec Demo.json (pre := []) (e := Run.e1)
    (c := Run.regCredential Run.challenge1)
    (cdj := Run.clientData "webauthn.create" Run.challenge1) (ob := Run.attObj) (acd := Demo.attested)
    (k := Demo.key) ⟨[Eve.e2], rfl⟩ owned_issues1 ?_ (Run.form1 _ _) rfl (Run.clientData_text _ _)
    (C38_base64url_encoding _).1 Run.attObj_enc Run.regRaw_enc ?_ ?_ Run.storedKey_eq ?_ ?_ ?_ ?_
  · decide
  · rfl
  · rfl
  · exact Run.rpHash_enc Run.regRaw_enc rfl
  · exact Demo.flagSet_enc Run.regRaw_enc (by decide)
  · exact owned_none_registered
  · exact fun pre e id k h => owned_none_registered pre e "ada" k h

theorem owned_registers3 : RegistersBy (ownedReply Run.app) Run.app [Run.e1, Eve.e2] Run.e3 Demo.credId
    "ada" Demo.key := by
  obtain ⟨f, t, n, c, cdj, ob, o, raw, acd, h1, -, h2⟩ := Eve.registers3
  exact ⟨f, t, n, c, cdj, ob, o, raw, acd, h1, owned_reply3, h2⟩

/-- Eve is refused. -/
example : ownedReply Run.app [Run.e1, Eve.e2, Run.e3, Eve.e6] Eve.e7 ≠ success := by
  intro h
  obtain ⟨a, _, ha, -⟩ := C66_repaired Run.app Demo.codec Demo.json
    [Run.e1, Eve.e2, Run.e3, Eve.e6] [Run.e1, Eve.e2] Run.e3 Demo.credId "ada"
    Demo.key (fun _ => False) _ 9000 2 Eve.authCredential ⟨[Eve.e6], rfl⟩ owned_registers3
    (fun pre e id k ho => owned_none_registered pre e "ada" k ho) Eve.holder h (Run.form2 _ _)
  exact ha

/-- Ada logs in. -/
example : ownedReply Run.app [Run.e1, Eve.e2, Run.e3] Run.e4 = success := by
  refine C66_repaired_authentication (app := Run.app) Demo.codec Demo.json (pre := [])
    (pre' := [Run.e1, Eve.e2])
    (e := Run.e1) (e' := Run.e3) (c := Run.authCredential 1 Run.challenge1)
    (cdj := Run.clientData "webauthn.get" Run.challenge1)
    (raw := Run.authRaw 1) (sig := Run.signature 1 Run.challenge1) (handle := some Run.handle1)
    (ad := Run.authAd 1)
    (k := Demo.key) ⟨[Eve.e2, Run.e3], rfl⟩ owned_issues1 ?_ ⟨[], rfl⟩ owned_registers3 (Run.form1 _ _) rfl
    (Run.clientData_text _ _) (C38_base64url_encoding _).1 ?_ (Run.authRaw_enc 1) ?_ ?_
    (Run.signature_ok 1 Run.challenge1) ?_
  · decide
  · intro h hh
    obtain rfl := Option.some.inj hh
    refine ⟨⟨1, "ada", Run.handle1⟩, ?_, rfl, rfl⟩
    rw [ownedRun_eq]
    obtain ⟨more, h1, -⟩ := kept_append Run.app [Run.e1, Eve.e2] [Run.e3]
    obtain ⟨us, h2⟩ := (run_prefix Run.app [Run.e1, Eve.e2] more).1
    have h3 : kept Run.app [Run.e1, Eve.e2] = [Run.e1, Eve.e2] := rfl
    rw [show [Run.e1, Eve.e2, Run.e3] = [Run.e1, Eve.e2] ++ [Run.e3] from rfl, h1, h3, h2, Eve.run2]
    simp
  · exact Run.rpHash_enc (Run.authRaw_enc 1) rfl
  · exact Demo.flagSet_enc (Run.authRaw_enc 1) (by decide)
  · rintro pre e m ⟨post, h⟩ ⟨f, t, n, c, name, rfl, -⟩
    have : Event.authenticationResponse f t ∈ [Run.e1, Eve.e2, Run.e3] := by rw [h]; simp
    simp [Run.e1, Eve.e2, Run.e3] at this

end WebAuthn.Flask
