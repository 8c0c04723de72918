import Verif.Props.Checks
import Verif.Props.CounterlessDemo
import Verif.Props.PhishingDemo

/-!
# Each of the checks is needed (C100)

For each check a history in which all the others admit a response that breaks what the check
is there for.
-/

namespace WebAuthn.Flask.Run

open Spec Props

/-! ## Registrations with any id of 16 bytes, key and counter -/

def dataOf (id : Bytes) (k : CPK) : AttestedCredentialData := ⟨List.replicate 16 0xaa, 16, id, some k⟩

/-- UP, AT set. -/
def adOf (id : Bytes) (k : CPK) (m : UInt8) : AuthData := ⟨rpHash, 0x41, m.toNat, some (dataOf id k), none⟩

def rawOf (id kb : Bytes) (m : UInt8) : Bytes :=
  rpHash ++ [0x41] ++ [0, 0, 0, m] ++ (List.replicate 16 0xaa ++ [0, 16] ++ id ++ kb) ++ []

theorem rawOf_enc {id kb : Bytes} {k : CPK} {m : UInt8} (hid : id.length = 16)
    (hk : EncodedKey Demo.env k kb) : EncodedAuthData app.env (adOf id k m) (rawOf id kb m) :=
  ⟨0x41, [0, 0, 0, m], _, [], rfl, Demo.sha_length _, rfl, rfl,
    Demo.bigEndian_of (by simp [beNat, adOf]),
    ⟨by decide, [0, 16], k, kb, rfl, rfl, rfl, Demo.bigEndian_of hid.symm, hid.symm, rfl, hk⟩, ⟨by decide, rfl⟩⟩

def objOf (id kb : Bytes) (m : UInt8) : Bytes :=
  (Cbor.enc (.dict (Demo.objMap (rawOf id kb m)))).toOption.getD []

theorem objOf_enc {id kb : Bytes} {m : UInt8} (hid : id.length = 16) (hk : kb.length < 100) :
    EncodedNoneAttestation app.env (rawOf id kb m) (objOf id kb m) := by
  refine ⟨Demo.objMap _, Demo.lookup_objMap rfl, Demo.lookup_objMap rfl, Demo.lookup_objMap rfl,
    Demo.objMap_plain _, ?_⟩
  obtain ⟨b, hb⟩ := Demo.objMap_enc (raw := rawOf id kb m) (by
    simp [rawOf, rpHash, show ∀ b, (Demo.sha b).length = 32 from Demo.sha_length, hid]
    omega)
  show Cbor.enc _ = _
  rw [objOf, hb]
  rfl

theorem objOf_of {id kb : Bytes} {k : CPK} {m : UInt8} (hid : id.length = 16) (hk : kb.length < 100)
    (he : EncodedKey Demo.env k kb) :
    AttObjOf app.env (objOf id kb m) ⟨adOf id k m, .NONE, .none⟩ (rawOf id kb m) := by
  obtain ⟨d, h1, h2, h3, h4, h5⟩ := objOf_enc (m := m) hid hk
  have := (Demo.codec).roundTrip h4 h5 []
  rw [List.append_nil] at this
  exact ⟨d, [], [], this, h3, encodedAuthData_of Demo.codec (rawOf_enc hid he), h1, h2, rfl, rfl⟩

/-- A registration with the id `rawId`, in which `id` is attested. -/
def credOf (rawId id kb : Bytes) (m : UInt8) (ch : Bytes) : Credential :=
  { id := "wcHBwcHBwcHBwcHBwcHBwQ", type := "public-key", rawId := rawId,
    response := .attestation (clientData "webauthn.create" ch) (objOf id kb m) }

section
variable {on : List Check}

local notation "rep" => checkedReply app on

/-- The registration is accepted where the conditions of the checks are met. -/
theorem signs {evs pre pre0 : List Event} {e e0 : Event} {f : Form} {now t t0 : Int} {n n0 : Nat}
    {ch ch0 key : Bytes} {name0 : String} {rawId id kb : Bytes} {m : UInt8} {k : CPK}
    (hid : id.length = 16) (hkb : kb.length < 100) (he : EncodedKey Demo.env k kb)
    (hkey : coseKey app.env k = .ok key)
    (ho : Occurs evs pre e) (hi : IssuesBy rep pre e n ch t name0) (ht : now - t ≤ 60000)
    (ho0 : Occurs evs pre0 e0) (hi0 : IssuesBy rep pre0 e0 n0 ch0 t0 "ada")
    (hf : Submits app f n (credOf rawId id kb m ch) "ada")
    (hnew : ∀ pre e name k, Occurs evs pre e → ¬ RegistersBy rep app pre e rawId name k)
    (hsingle : .single ∈ on → ∀ pre e t c name, Occurs evs pre e → ¬ SucceedsBy rep app pre e t n c name)
    (hown : .own ∈ on → name0 = "ada")
    (howner : .owner ∈ on → ∀ pre e id k, Occurs evs pre e → ¬ RegistersBy rep app pre e id "ada" k)
    (hattested : .attested ∈ on → id = rawId)
    (hgood : .key ∈ on → KeyAlg k .ES256 ∧ Profile k)
    (hlong : .long ∈ on → 16 ≤ rawId.length) :
    RegistersBy rep app evs (.registrationResponse f now) rawId "ada" k ∧
      BeginsBy rep app evs (.registrationResponse f now) rawId m.toNat := by
  have h := C100_registration (app := app) (on := on) Demo.codec Demo.json (now := now) ho hi ht ho0 hi0 hf rfl
    (clientData_text _ _) (C38_base64url_encoding _).1 (objOf_enc hid hkb) (rawOf_enc (k := k) hid he) rfl rfl
    hkey (rpHash_enc (rawOf_enc hid he) rfl) (Demo.flagSet_enc (rawOf_enc hid he) (show (0x41 : Nat).testBit 0 = true by decide)) hnew
    hsingle hown howner hattested hgood hlong
  exact ⟨⟨f, now, n, _, _, _, _, _, _, rfl, h, hf, rfl, rfl, objOf_of hid hkb he, rfl, rfl⟩,
    ⟨f, now, n, _, _, rfl, h, hf, rfl, _, _, _, _, rfl, objOf_of hid hkb he,
      (authDataOf_head (encodedAuthData_of Demo.codec (rawOf_enc hid he))).2.2.2⟩⟩

/-- Requests of challenges. -/
theorem checked1 : IssuesBy rep [] e1 1 challenge1 0 "ada" := issuesBy_checked (by simp) issues1

theorem checked_bob : IssuesBy rep [e1] e2 2 challenge2 1000 "bob" :=
  issuesBy_checked (by simp [e1, formIn]) issues2

theorem checked2 : IssuesBy rep [e1] ask2 2 challenge2 1000 "ada" := by
  refine issuesBy_checked (by simp [e1, formIn]) ⟨?_, Or.inr rfl⟩
  obtain ⟨v, hv, -⟩ := request_reply 2 [] challenge2
  exact ⟨_, v, hv⟩

theorem checked3 : IssuesBy rep [e1, ask2] ask0 3 challenge0 2000 "ada" := by
  refine issuesBy_checked (by simp [e1, ask2, formIn]) ⟨?_, Or.inr rfl⟩
  obtain ⟨v, hv, -⟩ := request_reply 3 [] challenge0
  exact ⟨_, v, hv⟩

theorem key_length : Demo.keyBytes.length < 100 := by
  rw [show Demo.keyBytes.length = 77 by decide]
  decide

theorem key_good : KeyAlg Demo.key .ES256 ∧ Profile Demo.key := ⟨key_alg, key_profile⟩

/-! ## `long` -/

theorem requests1 : ∀ e ∈ [e1], formIn e = none := by simp [e1, formIn]

/-- Without `long`, an id of four bytes is registered. -/
theorem long_needed (h : Check.long ∉ on) : ¬ Check.Claim rep app .long := by
  intro hc
  have h3 : rep [e1] e3 = success :=
    C100_registration (app := app) (on := on) Demo.codec Demo.json (pre := []) (e := e1) (pre0 := [])
      (e0 := e1) (c := regCredential challenge1) (cdj := clientData "webauthn.create" challenge1)
      (ob := attObj) (acd := Demo.attested) (k := Demo.key) ⟨[], rfl⟩ checked1 (by decide) ⟨[], rfl⟩ checked1
      (form1 _ _) rfl (clientData_text _ _) (C38_base64url_encoding _).1 attObj_enc regRaw_enc rfl rfl
      storedKey_eq (rpHash_enc regRaw_enc rfl) (Demo.flagSet_enc regRaw_enc (by decide))
      (fun _ _ _ _ ho => no_registration requests1 ho) (fun _ _ _ _ _ _ ho => no_success requests1 ho)
      (fun _ => rfl) (fun _ _ _ _ _ ho => no_registration requests1 ho) (fun _ => rfl) (fun _ => key_good)
      (fun hl => absurd hl h)
  obtain ⟨cdj, ob, o, raw, acd, g1, g2, g3, g4⟩ := attests
  have := hc [e1] e3 Demo.credId "ada" Demo.key
    ⟨_, _, _, _, cdj, ob, o, raw, acd, rfl, h3, form1 _ _, rfl, g1, g2, g3, g4⟩
  exact absurd this (by decide)

/-! ## `attested` -/

def otherId : Bytes := List.replicate 16 0xee

/-- Without `attested`, an id is registered that is not the attested one. -/
theorem attested_needed (h : Check.attested ∉ on) : ¬ Check.Claim rep app .attested := by
  intro hc
  obtain ⟨⟨f, t, n, c, cdj, ob, o, raw, acd, he, h3, -⟩, -⟩ := signs (on := on) (evs := [e1]) (now := 5000)
    (rawId := otherId) (id := id16) (m := 5) rfl key_length Demo.keyBytes_enc storedKey_eq ⟨[], rfl⟩ checked1
    (by decide) ⟨[], rfl⟩ checked1 (form1 _ "ada") (fun _ _ _ _ ho => no_registration requests1 ho)
    (fun _ _ _ _ _ _ ho => no_success requests1 ho) (fun _ => rfl)
    (fun _ _ _ _ _ ho => no_registration requests1 ho) (fun hl => absurd hl h) (fun _ => key_good)
    (fun _ => by decide)
  have := hc [e1] _ _ _ _ _ _ _ _ _ _ h3 (form1 _ "ada") rfl (objOf_of rfl key_length Demo.keyBytes_enc) rfl
  exact absurd this (by decide)

/-! ## `key` -/

theorem es384_length : Es384.keyBytes.length < 100 := by
  rw [show Es384.keyBytes.length = 81 by decide]
  decide

/-- Without `key`, a key for another algorithm is registered. -/
theorem key_needed (h : Check.key ∉ on) : ¬ Check.Claim rep app .key := by
  intro hc
  obtain ⟨hr, -⟩ := signs (on := on) (evs := [e1]) (now := 5000)
    (rawId := id16) (id := id16) (m := 5) rfl es384_length Es384.keyBytes_enc Es384.storedKey_eq ⟨[], rfl⟩
    checked1 (by decide) ⟨[], rfl⟩ checked1 (form1 _ "ada") (fun _ _ _ _ ho => no_registration requests1 ho)
    (fun _ _ _ _ _ _ ho => no_success requests1 ho) (fun _ => rfl)
    (fun _ _ _ _ _ ho => no_registration requests1 ho) (fun _ => rfl) (fun hl => absurd hl h)
    (fun _ => by decide)
  exact Es384.not_es256 (hc.1 _ _ _ _ _ hr)

/-! ## `own` -/

theorem requests_bob : ∀ e ∈ [e1, e2], formIn e = none := by simp [e1, e2, formIn]

/-- Without `own`, Ada registers with the challenge of Bob. -/
theorem own_needed (h : Check.own ∉ on) : ¬ Check.Claim rep app .own := by
  intro hc
  obtain ⟨⟨f, t, n, c, cdj, ob, o, raw, acd, he, h3, -⟩, -⟩ := signs (on := on) (evs := [e1, e2]) (now := 5000)
    (rawId := id16) (id := id16) (m := 5) rfl key_length Demo.keyBytes_enc storedKey_eq ⟨[], rfl⟩ checked_bob
    (by decide) ⟨[e2], rfl⟩ checked1 (form2 _ "ada") (fun _ _ _ _ ho => no_registration requests_bob ho)
    (fun _ _ _ _ _ _ ho => no_success requests_bob ho) (fun hl => absurd hl h)
    (fun _ _ _ _ _ ho => no_registration requests_bob ho) (fun _ => rfl) (fun _ => key_good)
    (fun _ => by decide)
  have := hc _ _ _ _ _ _ _ _ _ _ _ ⟨h3, _, Or.inl rfl, form2 _ "ada"⟩ ⟨[], rfl⟩ checked_bob
  exact absurd this (by decide)

/-! ## A registration and logins -/

/-- The credential of Ada, with the counter 5. -/
def cred5 : Credential := credOf id16 id16 Demo.keyBytes 5 challenge1

def sign5 : Event := .registrationResponse (formOf "1" cred5 "ada") 5000

def asks : List Event := [e1, ask2, ask0]

theorem requests_asks : ∀ e ∈ asks, formIn e = none := by simp [asks, e1, ask2, ask0, formIn]

theorem sign5_registers : RegistersBy rep app asks sign5 id16 "ada" Demo.key ∧
    BeginsBy rep app asks sign5 id16 5 :=
  signs (on := on) (evs := asks) (now := 5000) (rawId := id16) (id := id16) (m := 5) rfl key_length
    Demo.keyBytes_enc storedKey_eq ⟨[ask2, ask0], rfl⟩ checked1 (by decide) ⟨[ask2, ask0], rfl⟩ checked1
    (form1 _ "ada") (fun _ _ _ _ ho => no_registration requests_asks ho)
    (fun _ _ _ _ _ _ ho => no_success requests_asks ho) (fun _ => rfl)
    (fun _ _ _ _ _ ho => no_registration requests_asks ho) (fun _ => rfl) (fun _ => key_good)
    (fun _ => by decide)

theorem ada_user (more : List Event) :
    ⟨1, "ada", handle1⟩ ∈ (guardedRun app (on.map (Check.guard app)) ([e1] ++ more)).2.users := by
  rw [guardedRun_db]
  obtain ⟨rest, hm, -⟩ := servedOf_append (app := app) (gs := on.map (Check.guard app)) [e1] more
  rw [hm, served_requests requests1]
  obtain ⟨us, hu⟩ := (run_prefix app [e1] rest).1
  rw [hu]
  exact List.mem_append_left _ (by rw [run1]; simp)

/-- Only the registration succeeded. -/
theorem only_sign5 {pre : List Event} {e : Event} {t : Int} {n : Nat} {c : Credential} {name : String}
    (ho : Occurs (asks ++ [sign5]) pre e) (hs : SucceedsBy rep app pre e t n c name) :
    e = sign5 ∧ n = 1 ∧ c = cred5 := by
  rcases occurs_snoc_cases ho with ho | ⟨-, rfl⟩
  · exact absurd hs (no_success requests_asks ho)
  · obtain ⟨-, f, he, hf⟩ := hs
    rcases he with he | he
    · cases he
      obtain ⟨rfl, rfl, -⟩ := submits_unique hf (form1 _ _)
      exact ⟨rfl, rfl, rfl⟩
    · cases he

theorem cred5_initial {m : Nat} (h : HasInitialCounter app.env cred5 m) : m = 5 :=
  hasInitialCounter_unique h ⟨_, _, _, _, rfl, objOf_of rfl key_length Demo.keyBytes_enc,
    (authDataOf_head (encodedAuthData_of Demo.codec (rawOf_enc (m := 5) rfl Demo.keyBytes_enc))).2.2.2⟩

/-- Ada logs in, where the conditions of the checks are met. -/
theorem logs_in {pre : List Event} {e : Event} {n : Nat} {ch : Bytes} {t : Int} {m : UInt8} {f : Form}
    (ho : Occurs (asks ++ [sign5]) pre e) (hi : IssuesBy rep pre e n ch t "ada") (ht : 9000 - t ≤ 60000)
    (hf : Submits app f n (authCredential16 m ch) "ada") (hm : 5 < m.toNat ∨ Check.above ∉ on)
    (hn : n ≠ 1 ∨ Check.single ∉ on) :
    rep (asks ++ [sign5]) (.authenticationResponse f 9000) = success := by
  refine C100_login (app := app) (on := on) Demo.codec Demo.json (pre' := asks) (e' := sign5)
    (c := authCredential16 m ch) (cdj := clientData "webauthn.get" ch) (raw := authRaw m)
    (sig := signature m ch) (handle := some handle1) (ad := authAd m) (k := Demo.key) ho hi ht ⟨[], rfl⟩
    sign5_registers.1 hf rfl (clientData_text _ _) (C38_base64url_encoding _).1 ?_ (authRaw_enc m)
    (rpHash_enc (authRaw_enc m) rfl) (Demo.flagSet_enc (authRaw_enc m) (show (1 : Nat).testBit 0 = true by decide))
    (signature_ok m ch) ?_ ?_ (fun _ => rfl) ?_
  · intro h hh
    obtain rfl := Option.some.inj hh
    exact ⟨⟨1, "ada", handle1⟩, ada_user [ask2, ask0, sign5], rfl, rfl⟩
  · rintro pre e m h ⟨f, t, n, c, name, rfl, hs, hf, -⟩
    obtain ⟨he, -⟩ := only_sign5 h ⟨hs, f, Or.inr rfl, hf⟩
    cases he
  · intro hx pre e t c name h hs
    obtain ⟨-, rfl, -⟩ := only_sign5 h hs
    exact hn.elim (fun h => h rfl) (fun h => h hx)
  · rintro hx pre e j h ⟨f, t, i, c, name, rfl, hs, hf, -, hc⟩ -
    obtain ⟨-, -, rfl⟩ := only_sign5 h ⟨hs, f, Or.inl rfl, hf⟩
    rw [cred5_initial hc]
    exact hm.elim id (fun h => absurd hx h)

/-- Without `single`, Ada registers and logs in with one challenge. -/
theorem single_needed (h : Check.single ∉ on) : ¬ Check.Claim rep app .single := by
  intro hc
  have h1 := logs_in (on := on) (pre := []) (e := e1) (m := 6) ⟨[ask2, ask0, sign5], rfl⟩ checked1 (by decide)
    (form1 _ "ada") (Or.inl (by decide)) (Or.inr h)
  obtain ⟨⟨f, t, n, c, cdj, ob, o, raw, acd, he, h2, hf, -⟩, -⟩ := sign5_registers (on := on)
  cases he
  obtain ⟨rfl, -, -⟩ := submits_unique hf (form1 _ _)
  exact hc asks sign5 [] _ _ _ _ _ _ _ _ ⟨h2, _, Or.inl rfl, hf⟩ ⟨h1, _, Or.inr rfl, form1 _ "ada"⟩

/-- Without `above`, a login has a counter below that of the registration. -/
theorem above_needed (h : Check.above ∉ on) : ¬ Check.Claim rep app .above := by
  intro hc
  have h1 := logs_in (on := on) (pre := [e1]) (e := ask2) (m := 3) ⟨[ask0, sign5], rfl⟩ checked2 (by decide)
    (form2 _ "ada") (Or.inr h) (Or.inl (by decide))
  have := hc (asks ++ [sign5]) asks sign5 _ id16 5 3 ⟨[], rfl⟩ sign5_registers.2
    ⟨_, _, _, _, _, rfl, h1, form2 _ "ada", rfl, counter16 3 challenge2⟩ (by decide)
  exact absurd this (by decide)

/-! ## `owner` -/

def idE : Bytes := List.replicate 16 0xe1

/-- Eve registers a key under the name of Ada, with the third challenge, … -/
def signE : Event := .registrationResponse (formOf "3" (credOf idE idE Eve.keyBytes 0 challenge0) "ada") 6000

/-- … and logs in with the second. -/
def credE : Credential := { Eve.authCredential with rawId := idE }

def loginE : Event := .authenticationResponse (formOf "2" credE "ada") 9000

theorem eve_length : Eve.keyBytes.length < 100 := by
  rw [show Eve.keyBytes.length = 77 by decide]
  decide

theorem signE_registers (h : Check.owner ∉ on) :
    RegistersBy rep app (asks ++ [sign5]) signE idE "ada" Eve.key ∧
    BeginsBy rep app (asks ++ [sign5]) signE idE 0 := by
  refine signs (on := on) (evs := asks ++ [sign5]) (now := 6000) (rawId := idE) (id := idE) (m := 0) rfl
    eve_length Eve.keyBytes_enc Eve.storedKey_eq (pre := [e1, ask2]) ⟨[sign5], rfl⟩ checked3 (by decide)
    (pre0 := []) ⟨[ask2, ask0, sign5], rfl⟩ checked1 (form3 _ "ada") ?_ ?_ (fun _ => rfl)
    (fun hl => absurd hl h) (fun _ => rfl)
    (fun _ => ⟨⟨_, rfl, rfl⟩, rfl, rfl, rfl, _, _, ⟨_, rfl, rfl⟩, rfl, .es256⟩) (fun _ => by decide)
  · rintro pre e name k ho ⟨f, t, n, c, cdj, ob, o, raw, acd, rfl, hs, hf, hid, -⟩
    obtain ⟨-, -, rfl⟩ := only_sign5 ho ⟨hs, f, Or.inl rfl, hf⟩
    exact absurd hid (by decide)
  · intro _ pre e t c name ho hs
    exact absurd (only_sign5 ho hs).2.1 (by decide)

theorem loginE_reply (h : Check.owner ∉ on) : rep (asks ++ [sign5] ++ [signE]) loginE = success := by
  have cases2 : ∀ {pre e t n c name}, Occurs (asks ++ [sign5] ++ [signE]) pre e →
      SucceedsBy rep app pre e t n c name → (e = sign5 ∧ n = 1 ∧ c = cred5) ∨
        (e = signE ∧ n = 3 ∧ c = credOf idE idE Eve.keyBytes 0 challenge0) := by
    intro pre e t n c name ho hs
    rcases occurs_snoc_cases ho with ho | ⟨-, rfl⟩
    · exact Or.inl (only_sign5 ho hs)
    · obtain ⟨-, f, he, hf⟩ := hs
      rcases he with he | he
      · cases he
        obtain ⟨rfl, rfl, -⟩ := submits_unique hf (form3 _ _)
        exact Or.inr ⟨rfl, rfl, rfl⟩
      · cases he
  refine C100_login (app := app) (on := on) Demo.codec Demo.json (pre := [e1]) (e := ask2)
    (pre' := asks ++ [sign5]) (e' := signE)
    (c := credE) (cdj := clientData "webauthn.get" challenge2) (raw := authRaw 1)
    (sig := Eve.signature) (handle := none) (ad := authAd 1) (k := Eve.key) ⟨[ask0, sign5, signE], rfl⟩
    checked2 (by decide) ⟨[], rfl⟩ (signE_registers h).1 (form2 _ _) rfl (clientData_text _ _)
    (C38_base64url_encoding _).1 (fun _ hh => nomatch hh) (authRaw_enc 1)
    (rpHash_enc (authRaw_enc 1) rfl) (Demo.flagSet_enc (authRaw_enc 1) (by decide)) Eve.signature_ok ?_ ?_
    (fun _ => rfl) ?_
  · rintro pre e m ho ⟨f, t, n, c, name, rfl, hs, hf, -⟩
    rcases cases2 ho ⟨hs, f, Or.inr rfl, hf⟩ with ⟨he, -⟩ | ⟨he, -⟩ <;> cases he
  · intro _ pre e t c name ho hs
    rcases cases2 ho hs with ⟨-, h, -⟩ | ⟨-, h, -⟩ <;> exact absurd h (by decide)
  · rintro - pre e j ho ⟨f, t, i, c, name, rfl, hs, hf, hid, hc⟩ hj
    rcases cases2 ho ⟨hs, f, Or.inl rfl, hf⟩ with ⟨-, -, rfl⟩ | ⟨-, -, rfl⟩
    · exact absurd hid (by decide)
    · refine absurd (hasInitialCounter_unique hc ?_) hj
      exact ⟨_, _, _, _, rfl, objOf_of rfl eve_length Eve.keyBytes_enc,
        (authDataOf_head (encodedAuthData_of Demo.codec (rawOf_enc (m := 0) rfl Eve.keyBytes_enc))).2.2.2⟩

/-- Ada approved nothing. -/
theorem holderE : Holder app.env Demo.key (Sent app (asks ++ [sign5] ++ [signE] ++ [loginE])) (fun _ => False) where
  browser := by simp
  unforged := by
    rintro cdj raw sig ⟨f, t, n, c, name, handle, hm, hf, hc⟩ hs
    simp only [asks, e1, ask2, ask0, sign5, signE, loginE, List.cons_append, List.nil_append, List.mem_cons,
      List.not_mem_nil, or_false, reduceCtorEq, false_or, Event.authenticationResponse.injEq] at hm
    obtain ⟨rfl, -⟩ := hm
    obtain ⟨-, rfl, -⟩ := submits_unique hf (form2 _ _)
    simp only [credE, Eve.authCredential, Response.assertion.injEq] at hc
    rw [← hc.2.2.1] at hs
    exact absurd hs (Eve.not_signed _)
  noCollision := by simp
  digest := Demo.sha_length

/-- Without `owner`, Eve registers a key under the name of Ada and logs in as Ada. -/
theorem owner_needed (h : Check.owner ∉ on) : ¬ Check.Claim rep app .owner := by
  intro hc
  obtain ⟨a, _, ha, -⟩ := hc (asks ++ [sign5] ++ [signE]) asks sign5 id16 "ada" Demo.key (fun _ => False) _ 9000 2
    credE ⟨[signE], rfl⟩ sign5_registers.1 (fun _ _ _ _ ho => no_registration requests_asks ho) holderE
    (loginE_reply h) (form2 _ _)
  exact ha

end

end WebAuthn.Flask.Run

namespace WebAuthn.Flask

open WebAuthn.Spec WebAuthn.Props

/-- C100: what a check is there for holds, behind whatever checks, exactly if it is one of them. -/
theorem C100_each_exactly (c : Check) (on : List Check) :
    (∀ app, CodecLaws app.env → JsonLaw app.env → c.Claim (checkedReply app on) app) ↔ c ∈ on := by
  refine ⟨fun h => ?_, fun h app codec json => C100_each codec json h⟩
  by_contra hn
  have h := h Run.app Demo.codec Demo.json
  cases c with
  | single => exact Run.single_needed hn h
  | own => exact Run.own_needed hn h
  | owner => exact Run.owner_needed hn h
  | attested => exact Run.attested_needed hn h
  | key => exact Run.key_needed hn h
  | long => exact Run.long_needed hn h
  | above => exact Run.above_needed hn h

/-- C100: the checks of a list are enough exactly if all the seven are among them. -/
theorem C100_exactly (on : List Check) : ChecksSuffice on ↔ ∀ c, c ∈ on :=
  ⟨fun h c => (C100_each_exactly c on).mp fun app codec json => strong_iff.mp (h app codec json) c,
    C100_enough⟩

/-- All the seven, in any order, … -/
example : ChecksSuffice [.above, .long, .key, .attested, .owner, .own, .single] :=
  (C100_exactly _).mpr fun c => by cases c <;> decide

/-- … but not six of them. -/
example : ¬ ChecksSuffice [.single, .own, .owner, .attested, .key, .long] := fun h =>
  absurd ((C100_exactly _).mp h .above) (by decide)

end WebAuthn.Flask
