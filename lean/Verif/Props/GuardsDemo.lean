import Verif.Props.Guards
import Verif.Props.InitialDemo

/-!
# The example application behind all the checks, concretely (C84)
-/

namespace WebAuthn.Flask.Run

open Spec Props

/-! ## A credential with an id of 16 bytes -/

def id16 : Bytes := List.replicate 16 0xc1

def attested16 : AttestedCredentialData := ⟨List.replicate 16 0xaa, 16, id16, some Demo.key⟩

/-- UP, AT set; counter 5. -/
def regAd16 : AuthData := ⟨rpHash, 0x41, 5, some attested16, none⟩

def regRaw16 : Bytes :=
  rpHash ++ [0x41] ++ [0, 0, 0, 5] ++
    (List.replicate 16 0xaa ++ [0, 16] ++ id16 ++ Demo.keyBytes) ++ []

theorem regRaw16_enc : EncodedAuthData app.env regAd16 regRaw16 :=
  ⟨0x41, [0, 0, 0, 5], _, [], rfl, Demo.sha_length _, rfl, rfl, Demo.bigEndian_of rfl,
    ⟨by decide, [0, 16], Demo.key, Demo.keyBytes, rfl, rfl, rfl, Demo.bigEndian_of rfl, rfl, rfl,
      Demo.keyBytes_enc⟩, ⟨by decide, rfl⟩⟩

def attObj16 : Bytes := (Cbor.enc (.dict (Demo.objMap regRaw16))).toOption.getD []

theorem regRaw16_length : regRaw16.length < 2 ^ 64 := by
  have : Demo.keyBytes.length = 77 := by decide
  simp [regRaw16, rpHash, show ∀ b, (Demo.sha b).length = 32 from Demo.sha_length, this, id16]

theorem attObj16_enc : EncodedNoneAttestation app.env regRaw16 attObj16 := by
  refine ⟨Demo.objMap regRaw16, Demo.lookup_objMap rfl, Demo.lookup_objMap rfl, Demo.lookup_objMap rfl,
    Demo.objMap_plain _, ?_⟩
  obtain ⟨b, hb⟩ := Demo.objMap_enc regRaw16_length
  show Cbor.enc _ = _
  rw [attObj16, hb]
  rfl

theorem attObj16_of : AttObjOf app.env attObj16 ⟨regAd16, .NONE, .none⟩ regRaw16 := by
  obtain ⟨d, h1, h2, h3, h4, h5⟩ := attObj16_enc
  have := (Demo.codec).roundTrip h4 h5 []
  rw [List.append_nil] at this
  exact ⟨d, [], [], this, h3, encodedAuthData_of Demo.codec regRaw16_enc, h1, h2, rfl, rfl⟩

def regCredential16 : Credential :=
  { id := "wcHBwcHBwcHBwcHBwcHBwQ", type := "public-key", rawId := id16,
    response := .attestation (clientData "webauthn.create" challenge1) attObj16 }

/-- The response to a challenge with the counter `n`. -/
def authCredential16 (n : UInt8) (ch : Bytes) : Credential :=
  { authCredential n ch with id := "wcHBwcHBwcHBwcHBwcHBwQ", rawId := id16 }

/-! ## The run: Ada gets two challenges, registers with the first, logs in with the second -/

abbrev guarded (evs : List Event) (e : Event) : Reply := guardedReply app (allGuards app) evs e

def ask2 : Event := .authenticationRequest (some "ada") challenge2 1000

def sign16 : Event := .registrationResponse (formOf "1" regCredential16 "ada") 5000

def login16 (n : UInt8) : Event :=
  .authenticationResponse (formOf "2" (authCredential16 n challenge2) "ada") 9000

theorem guarded1 : IssuesBy guarded [] e1 1 challenge1 0 "ada" := by
  refine ⟨?_, issues1.2⟩
  rw [show guarded [] e1 = reply app [] e1 from C84_requests rfl]
  exact issues1.1

theorem guarded2_run : guardedRun app (allGuards app) [e1] = ([(e1, reply app [] e1)], run app [e1]) := rfl

theorem guarded2 : IssuesBy guarded [e1] ask2 2 challenge2 1000 "ada" := by
  refine ⟨?_, Or.inr rfl⟩
  rw [show guarded [e1] ask2 = reply app [e1] ask2 from C84_requests rfl]
  obtain ⟨v, hv, -⟩ := request_reply 2 [] challenge2
  exact ⟨_, v, hv⟩

theorem nothing_succeeds {pre : List Event} {e : Event} {t : Int} {n : Nat} {c : Credential}
    {name : String} (h : Occurs [e1, ask2] pre e) : ¬ SucceedsBy guarded app pre e t n c name := by
  rintro ⟨-, f, he, -⟩
  obtain ⟨post, h⟩ := h
  have : e ∈ [e1, ask2] := by rw [h]; simp
  rcases he with rfl | rfl <;> simp [e1, ask2] at this

theorem nothing_registers {pre : List Event} {e : Event} {id : Bytes} {name : String} {k : CPK}
    (h : Occurs [e1, ask2] pre e) : ¬ RegistersBy guarded app pre e id name k := by
  rintro ⟨f, t, n, c, cdj, ob, o, raw, acd, rfl, hs, hf, -⟩
  exact nothing_succeeds h ⟨hs, f, Or.inl rfl, hf⟩

/-- The registration is accepted behind all the checks (an instance of `C84_registration`). -/
theorem sign16_reply : guarded [e1, ask2] sign16 = success := by
  refine C84_registration (app := app) Demo.codec Demo.json (pre := []) (e := e1)
    (c := regCredential16) (cdj := clientData "webauthn.create" challenge1) (ob := attObj16)
    (acd := attested16) (k := Demo.key) ⟨[ask2], rfl⟩ guarded1 ?_
    (fun _ _ _ _ _ h => nothing_succeeds h) (form1 _ _) rfl
    (clientData_text _ _) (C38_base64url_encoding _).1 attObj16_enc regRaw16_enc ?_ ?_ storedKey_eq
    ?_ ?_ ?_ ?_ ?_ ?_ (fun _ _ _ _ h => nothing_registers h) (fun _ _ _ _ h => nothing_registers h)
  · decide
  · rfl
  · rfl
  · exact rpHash_enc regRaw16_enc rfl
  · exact Demo.flagSet_enc regRaw16_enc (by decide)
  · exact ⟨_, rfl, rfl⟩
  · exact ⟨rfl, rfl, rfl, _, _, ⟨_, rfl, rfl⟩, rfl, .es256⟩
  · rfl
  · decide

theorem sign16_registers : RegistersBy guarded app [e1, ask2] sign16 id16 "ada" Demo.key :=
  ⟨_, _, _, regCredential16, _, _, _, regRaw16, attested16, rfl, sign16_reply,
    form1 _ _, rfl, rfl, attObj16_of, rfl, rfl⟩

theorem initial16 : HasInitialCounter app.env regCredential16 5 :=
  ⟨_, _, _, _, rfl, attObj16_of, (authDataOf_head (encodedAuthData_of Demo.codec regRaw16_enc)).2.2.2⟩

theorem sign16_begins : BeginsBy guarded app [e1, ask2] sign16 id16 5 :=
  ⟨_, _, _, _, _, rfl, sign16_reply, form1 _ _, rfl, initial16⟩

theorem occurs3 {a b d e : Event} {pre : List Event} (h : Occurs [a, b, d] pre e) :
    Occurs [a, b] pre e ∨ pre = [a, b] ∧ e = d := by
  rcases occurs_snoc_cases (evs := [a, b]) (a := d) h with h | ⟨rfl, rfl⟩
  · exact Or.inl h
  · exact Or.inr ⟨rfl, rfl⟩

/-- A login with a greater counter is accepted (an instance of `C84_login`). -/
theorem login16_reply (n : UInt8) (hn : 5 < n.toNat) : guarded [e1, ask2, sign16] (login16 n) = success := by
  refine C84_login (app := app) Demo.codec Demo.json (pre := [e1]) (pre' := [e1, ask2])
    (e := ask2) (e' := sign16) (c := authCredential16 n challenge2)
    (cdj := clientData "webauthn.get" challenge2)
    (raw := authRaw n) (sig := signature n challenge2) (handle := some handle1) (ad := authAd n)
    (k := Demo.key) ⟨[sign16], rfl⟩ guarded2 ?_ ?_ ⟨[], rfl⟩ sign16_registers (form2 _ _) rfl
    (clientData_text _ _) (C38_base64url_encoding _).1 ?_ (authRaw_enc n) ?_ ?_
    (signature_ok n challenge2) ?_ ?_
  · decide
  · rintro pre e t c name h hs
    rcases occurs3 h with h | ⟨rfl, rfl⟩
    · exact nothing_succeeds h hs
    · obtain ⟨-, f, he, hf⟩ := hs
      rcases he with he | he
      · cases he
        exact absurd (submits_unique hf (form1 _ _)).1 (by decide)
      · cases he
  · intro h hh
    obtain rfl := Option.some.inj hh
    refine ⟨⟨1, "ada", handle1⟩, ?_, rfl, rfl⟩
    rw [guardedRun_db, show [e1, ask2, sign16] = [e1] ++ [ask2, sign16] from rfl]
    obtain ⟨more, hm, -⟩ := servedOf_append (app := app) (gs := allGuards app) [e1] [ask2, sign16]
    rw [hm]
    obtain ⟨us, hu⟩ := (run_prefix app (servedOf app (allGuards app) [e1]) more).1
    rw [hu]
    exact List.mem_append_left _ (by rw [show servedOf app (allGuards app) [e1] = [e1] from rfl, run1]; simp)
  · exact rpHash_enc (authRaw_enc n) rfl
  · exact Demo.flagSet_enc (authRaw_enc n) (show (1 : Nat).testBit 0 = true by decide)
  · rintro pre e m h ⟨f, t, n, c, name, rfl, hs, hf, -⟩
    rcases occurs3 h with h | ⟨-, he⟩
    · exact absurd ⟨hs, f, Or.inr rfl, hf⟩ (nothing_succeeds h)
    · cases he
  · rintro pre e m h ⟨f, t, i, c, name, rfl, hs, hf, -, hc⟩ -
    rcases occurs3 h with h | ⟨-, he⟩
    · exact absurd ⟨hs, f, Or.inl rfl, hf⟩ (nothing_succeeds h)
    · cases he
      obtain ⟨-, rfl, -⟩ := submits_unique hf (form1 _ _)
      rw [hasInitialCounter_unique hc initial16]
      exact hn

theorem counter16 (n : UInt8) (ch : Bytes) : HasCounter (authCredential16 n ch) n.toNat :=
  ⟨_, _, _, _, rfl, (authDataOf_head (encodedAuthData_of Demo.codec (authRaw_enc n))).2.2.2⟩

/-- A copy with a smaller counter is kept out, … -/
example : guarded [e1, ask2, sign16] (login16 3) ≠ success := fun h =>
  absurd ((C84_strong Demo.codec Demo.json fun _ h => h).above [e1, ask2, sign16] [e1, ask2] sign16
    (login16 3) id16 5 3 ⟨[], rfl⟩ sign16_begins
    ⟨_, _, _, _, _, rfl, h, form2 _ _, rfl, counter16 3 challenge2⟩ (by decide)) (by decide)

/-- … and so is another response to the same challenge, … -/
example : guarded [e1, ask2, sign16, login16 6] (login16 7) ≠ success := fun h =>
  C84_single_use (app := app) (gs := allGuards app) (by simp [allGuards]) [e1, ask2, sign16] (login16 6)
    [] (login16 7) 9000 9000 2 _ _ "ada" "ada"
    ⟨login16_reply 6 (by decide), _, Or.inr rfl, form2 _ _⟩ ⟨h, _, Or.inr rfl, form2 _ _⟩

/-- … and the registration of an id of four bytes, which the application accepts. -/
example : reply app [e1, e2] e3 = success ∧ guarded [e1, e2] e3 ≠ success := by
  refine ⟨reply3, fun h => ?_⟩
  obtain ⟨f, t, n, c, cdj, ob, o, raw, acd, h1, -, h3⟩ := registers3
  have := C84_long_id (app := app) (gs := allGuards app) (by simp [allGuards])
    ⟨f, t, n, c, cdj, ob, o, raw, acd, h1, h, h3⟩
  exact absurd this (by decide)

end WebAuthn.Flask.Run
