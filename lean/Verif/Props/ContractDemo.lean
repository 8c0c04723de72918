import Verif.Props.ContractServes
import Verif.Props.GuardsDemo
import Verif.Props.WholeDemo

/-!
# The example application on the repaired package, concretely (C96)
-/

namespace WebAuthn.Flask.Run

open Spec Props

/-! ## A security key with a U2F attestation -/

namespace U2F16

/-- The U2F registration message. -/
def message : Bytes :=
  [0x00] ++ rpHash ++ Demo.sha (clientData "webauthn.create" challenge1) ++ id16 ++ [0x04] ++ Demo.x ++ Demo.y

def sig : Bytes := Demo.sign (.ec .SECP256R1 7 1) message

theorem sig_length : sig.length = 40 := by
  have h : ∀ b, (Demo.sha b).length = 32 := Demo.sha_length
  simp [sig, Demo.sign, h, Cbor.toBE_length]

def stmtMap : Dict := [(.str "sig", .bytes sig), (.str "x5c", .list [.bytes U2F.certBytes])]

def objMap : Dict :=
  [(.str "fmt", .str "fido-u2f"), (.str "attStmt", .dict stmtMap),
   (.str "authData", .bytes regRaw16)]

theorem plain : Plain (.dict objMap) := by
  refine .dict _ ?_ (by simp [objMap]) ?_
  · intro kv hkv
    simp only [objMap, List.mem_cons, List.not_mem_nil, or_false] at hkv
    rcases hkv with rfl | rfl | rfl <;> exact Or.inr ⟨_, rfl⟩
  · intro kv hkv
    simp only [objMap, List.mem_cons, List.not_mem_nil, or_false] at hkv
    rcases hkv with rfl | rfl | rfl
    · exact .str _
    · refine .dict _ ?_ (by simp [stmtMap]) ?_
      · intro kv hkv
        simp only [stmtMap, List.mem_cons, List.not_mem_nil, or_false] at hkv
        rcases hkv with rfl | rfl <;> exact Or.inr ⟨_, rfl⟩
      · intro kv hkv
        simp only [stmtMap, List.mem_cons, List.not_mem_nil, or_false] at hkv
        rcases hkv with rfl | rfl
        · exact .bytes _
        · refine .list _ fun v hv => ?_
          simp only [List.mem_cons, List.not_mem_nil, or_false] at hv
          subst hv
          exact .bytes _
    · exact .bytes _

theorem encodes : ∃ b, Cbor.enc (.dict objMap) = .ok b := by
  refine Cbor.enc_dict (by simp [objMap]) fun kv hkv => ?_
  simp only [objMap, List.mem_cons, List.not_mem_nil, or_false] at hkv
  rcases hkv with rfl | rfl | rfl
  · exact ⟨Cbor.enc_str (by decide), Cbor.enc_str (by decide)⟩
  · refine ⟨Cbor.enc_str (by decide), Cbor.enc_dict (by simp [stmtMap]) fun kv hkv => ?_⟩
    simp only [stmtMap, List.mem_cons, List.not_mem_nil, or_false] at hkv
    rcases hkv with rfl | rfl
    · exact ⟨Cbor.enc_str (by decide), Cbor.enc_bytes (by rw [sig_length]; decide)⟩
    · refine ⟨Cbor.enc_str (by decide), Cbor.enc_list (by simp) fun v hv => ?_⟩
      simp only [List.mem_cons, List.not_mem_nil, or_false] at hv
      subst hv
      exact Cbor.enc_bytes (by decide)
  · exact ⟨Cbor.enc_str (by decide), Cbor.enc_bytes regRaw16_length⟩

def obj : Bytes := (Cbor.enc (.dict objMap)).toOption.getD []

theorem obj_eq : Cbor.enc (.dict objMap) = .ok obj := by
  obtain ⟨b, hb⟩ := encodes
  rw [obj, hb]
  rfl

/-- The parsed attestation object. -/
def att : AttestationObject := ⟨regAd16, .FIDO_U2F, .fidoU2F sig [U2F.certBytes]⟩

theorem lookupObj {n : String} {v : PyVal} (h : objMap.get? (.str n) = some v) :
    Lookup objMap (.str n) v := lookup_iff.mpr h

theorem lookupStmt {n : String} {v : PyVal} (h : stmtMap.get? (.str n) = some v) :
    Lookup stmtMap (.str n) v := lookup_iff.mpr h

theorem stmt_of : AttStmtOf .FIDO_U2F stmtMap (.fidoU2F sig [U2F.certBytes]) := by
  refine ⟨rfl, ?_, lookupStmt rfl, ?_⟩
  · intro kv hkv
    simp only [stmtMap, List.mem_cons, List.not_mem_nil, or_false] at hkv
    rcases hkv with rfl | rfl
    · exact ⟨"sig", by simp, rfl⟩
    · exact ⟨"x5c", by simp, rfl⟩
  · exact Or.inl (lookupStmt rfl)

theorem loads : app.env.cborLoad obj = .ok (.dict objMap, []) := by
  have := Demo.codec.roundTrip plain obj_eq []
  rwa [List.append_nil] at this

theorem obj_of : AttObjOf app.env obj att regRaw16 :=
  ⟨objMap, [], stmtMap, loads, lookupObj rfl, encodedAuthData_of Demo.codec regRaw16_enc,
    lookupObj rfl, lookupObj rfl, stmt_of⟩

/-- The signature is valid. -/
theorem valid : U2FOk app.env sig [U2F.certBytes] att.authData
    (app.env.sha256 (clientData "webauthn.create" challenge1)) U2F.cert := by
  refine ⟨U2F.certBytes, 7, 1, attested16, _, Demo.x, Demo.y, _, rfl, rfl, rfl, rfl, rfl, ?_⟩
  exact Demo.check_sign _ message

end U2F16

def u2fCredential16 : Credential :=
  { regCredential16 with response := .attestation (clientData "webauthn.create" challenge1) U2F16.obj }

def signU2F : Event := .registrationResponse (formOf "1" u2fCredential16 "ada") 5000

/-! ## The run: Ada gets two challenges, registers with the first, logs in with the second -/

abbrev fixed (evs : List Event) (e : Event) : Reply := fixedReply app evs e

theorem fixed1 : IssuesBy fixed [] e1 1 challenge1 0 "ada" := by
  refine ⟨?_, issues1.2⟩
  rw [show fixed [] e1 = reply app [] e1 from C96_requests rfl]
  exact issues1.1

theorem fixed2 : IssuesBy fixed [e1] ask2 2 challenge2 1000 "ada" := by
  refine ⟨?_, Or.inr rfl⟩
  rw [show fixed [e1] ask2 = reply app [e1] ask2 from C96_requests rfl]
  obtain ⟨v, hv, -⟩ := request_reply 2 [] challenge2
  exact ⟨_, v, hv⟩

theorem fixed_nothing {pre : List Event} {e : Event} {t : Int} {n : Nat} {c : Credential}
    {name : String} (h : Occurs [e1, ask2] pre e) : ¬ SucceedsBy fixed app pre e t n c name := by
  rintro ⟨-, f, he, -⟩
  obtain ⟨post, h⟩ := h
  have : e ∈ [e1, ask2] := by rw [h]; simp
  rcases he with rfl | rfl <;> simp [e1, ask2] at this

theorem fixed_none {pre : List Event} {e : Event} {id : Bytes} {name : String} {k : CPK}
    (h : Occurs [e1, ask2] pre e) : ¬ RegistersBy fixed app pre e id name k := by
  rintro ⟨f, t, n, c, cdj, ob, o, raw, acd, rfl, hs, hf, -⟩
  exact fixed_nothing h ⟨hs, f, Or.inl rfl, hf⟩

/-- The security key is accepted (an instance of `C96_registration`). -/
theorem fixed_sign : fixed [e1, ask2] signU2F = success := by
  refine C96_registration (app := app) Demo.json Demo.refuses_mark (pre := []) (e := e1)
    (c := u2fCredential16) (cdj := clientData "webauthn.create" challenge1) (ob := U2F16.obj)
    (o := U2F16.att) (acd := attested16) (k := Demo.key) ⟨[ask2], rfl⟩ fixed1 (by decide)
    (fun _ _ _ _ _ h => fixed_nothing h) (form1 _ _) rfl
    (clientData_text _ _) (C38_base64url_encoding _).1 U2F16.obj_of ⟨_, U2F16.loads⟩
    (.fidoU2F _ _ _ U2F16.valid) ?_ rfl rfl storedKey_eq (rpHash_enc regRaw16_enc rfl)
    (Demo.flagSet_enc regRaw16_enc (by decide)) ?_ ⟨_, rfl, rfl⟩
    ⟨rfl, rfl, rfl, _, _, ⟨_, rfl, rfl⟩, rfl, .es256⟩ rfl (by decide)
    (fun _ _ _ _ h => fixed_none h) (fun _ _ _ _ h => fixed_none h)
  · rintro _ _ - acd b x y crv h1 h2
    cases h1
    cases h2
    exact ⟨rfl, rfl⟩
  · intro e he
    cases he

theorem fixed_registers : RegistersBy fixed app [e1, ask2] signU2F id16 "ada" Demo.key :=
  ⟨_, _, _, u2fCredential16, _, _, _, regRaw16, attested16, rfl, fixed_sign,
    form1 _ _, rfl, rfl, U2F16.obj_of, rfl, rfl⟩

theorem fixed_initial : HasInitialCounter app.env u2fCredential16 5 :=
  ⟨_, _, _, _, rfl, U2F16.obj_of, (authDataOf_head (encodedAuthData_of Demo.codec regRaw16_enc)).2.2.2⟩

theorem fixed_begins : BeginsBy fixed app [e1, ask2] signU2F id16 5 :=
  ⟨_, _, _, _, _, rfl, fixed_sign, form1 _ _, rfl, fixed_initial⟩

theorem fixed_run1 : (packageRun (fun _ => repairedPackage app.env appPolicy) app (appGuards app) [e1]).2 =
    ⟨[⟨1, "ada", handle1⟩], [], [⟨1, challenge1, 0, 1⟩]⟩ := rfl

/-- A login with a greater counter is accepted (an instance of `C96_login`). -/
theorem fixed_login (n : UInt8) (hn : 5 < n.toNat) : fixed [e1, ask2, signU2F] (login16 n) = success := by
  refine C96_login (app := app) Demo.codec Demo.json Demo.refuses_mark (pre := [e1]) (pre' := [e1, ask2])
    (e := ask2) (e' := signU2F) (c := authCredential16 n challenge2)
    (cdj := clientData "webauthn.get" challenge2)
    (raw := authRaw n) (sig := signature n challenge2) (handle := some handle1) (ad := authAd n)
    (k := Demo.key) ⟨[signU2F], rfl⟩ fixed2 (by decide) ?_ ⟨[], rfl⟩ fixed_registers (form2 _ _) rfl
    (clientData_text _ _) (C38_base64url_encoding _).1 ?_ (encodedAuthData_of Demo.codec (authRaw_enc n))
    (rpHash_enc (authRaw_enc n) rfl)
    (Demo.flagSet_enc (authRaw_enc n) (show (1 : Nat).testBit 0 = true by decide)) ?_ ?_
    (signature_ok n challenge2) ?_ ?_
  · rintro pre e t c name h hs
    rcases occurs3 h with h | ⟨rfl, rfl⟩
    · exact fixed_nothing h hs
    · obtain ⟨-, f, he, hf⟩ := hs
      rcases he with he | he
      · cases he
        exact absurd (submits_unique hf (form1 _ _)).1 (by decide)
      · cases he
  · intro h hh
    obtain rfl := Option.some.inj hh
    refine ⟨⟨1, "ada", handle1⟩, ?_, rfl, rfl⟩
    rw [show [e1, ask2, signU2F] = [e1] ++ [ask2, signU2F] from rfl]
    refine package_users (fun _ => (C96_repaired (p := appPolicy) rfl).toContractBy) _ _ ?_
    rw [fixed_run1]
    simp
  · intro e he
    cases he
  · rintro ⟨e, he, -⟩
    cases he
  · rintro pre e m h ⟨f, t, n, c, name, rfl, hs, hf, -⟩
    rcases occurs3 h with h | ⟨-, he⟩
    · exact absurd ⟨hs, f, Or.inr rfl, hf⟩ (fixed_nothing h)
    · cases he
  · rintro pre e m h ⟨f, t, i, c, name, rfl, hs, hf, -, hc⟩ -
    rcases occurs3 h with h | ⟨-, he⟩
    · exact absurd ⟨hs, f, Or.inl rfl, hf⟩ (fixed_nothing h)
    · cases he
      obtain ⟨-, rfl, -⟩ := submits_unique hf (form1 _ _)
      rw [hasInitialCounter_unique hc fixed_initial]
      exact hn

/-- All that is false of the application today holds of it (an instance of `C96_fixed`). -/
theorem fixed_holds : UpheldStrictly fixed app :=
  C96_fixed Demo.codec Demo.json Demo.refuses_mark fun _ h => h

/-- A copy with a smaller counter is kept out, … -/
example : fixed [e1, ask2, signU2F] (login16 3) ≠ success := fun h =>
  absurd (fixed_holds.above [e1, ask2, signU2F] [e1, ask2] signU2F
    (login16 3) id16 5 3 ⟨[], rfl⟩ fixed_begins
    ⟨_, _, _, _, _, rfl, h, form2 _ _, rfl, counter16 3 challenge2⟩ (by decide)) (by decide)

/-- … and so is another response to the same challenge. -/
example : fixed [e1, ask2, signU2F, login16 6] (login16 7) ≠ success := fun h =>
  fixed_holds.singleUse [e1, ask2, signU2F] (login16 6)
    [] (login16 7) 9000 9000 2 _ _ "ada" "ada"
    ⟨fixed_login 6 (by decide), _, Or.inr rfl, form2 _ _⟩ ⟨h, _, Or.inr rfl, form2 _ _⟩

/-- The contract is not for nothing: with a package that takes all responses, who never registered
logs in. -/
def careless : Package := ⟨fun _ _ s => (.ok (), s), fun _ _ s => (.ok (), s)⟩

theorem careless_login (db : Db) (hc : db.challenge (some 2) = some ⟨2, challenge2, 1000, 1⟩)
    (hu : db.userNamed "ada" = some ⟨1, "ada", handle1⟩) : (packageStep careless app (login16 6) db).1 = success := by
  have hread : readResponse app false (formOf "2" (authCredential16 6 challenge2) "ada") 9000 db =
        .ok (authCredential16 6 challenge2, ⟨2, challenge2, 1000, 1⟩, ⟨1, "ada", handle1⟩) :=
    readResponse_ok_iff.mpr ⟨2, "ada", form2 _ _, rfl, hc, hu, by decide⟩
  rw [login16, packageStep_login (pkg := careless) hread rfl]
  rfl

example : ¬ Upheld (packageReply (fun _ => careless) app []) app := by
  intro h
  obtain ⟨-, -, -, pre, e, k, -, -, -, -, -, ho, ⟨f, t, -, -, -, -, -, -, -, rfl, -⟩, -⟩ :=
    h.registered [e1, ask2] (formOf "2" (authCredential16 6 challenge2) "ada") 9000 (by
      rw [reply_admitted (show Admitted (fun _ => careless) app [] _ _ from rfl)]
      exact careless_login _ rfl rfl)
  obtain ⟨post, ho⟩ := ho
  have : Event.registrationResponse f t ∈ [e1, ask2] := by rw [ho]; simp
  simp [e1, ask2] at this

example : ¬ Contract app.env careless := by
  intro h
  obtain ⟨_, _, _, _, _, _, hc, -⟩ := h.registers (registrar app.env)
    (attestationArgs (authCredential16 6 challenge2) ⟨1, challenge1, 0, 1⟩ ⟨1, "ada", handle1⟩) {} {} rfl
  cases hc

/-- The guarantees hold with the package as it is (an instance of `C96_guarantees`), and what it
says is the application. -/
example : Upheld (reply app) app := by
  have := C96_guarantees (app := app) (C96_code Demo.refuses_mark) Demo.codec Demo.json Demo.refuses_mark []
  rwa [show packageReply (fun _ => codePackage app.env) app [] = reply app from
    funext fun evs => funext fun e => (C96_same evs e).trans (C84_no_guards evs e)] at this

end WebAuthn.Flask.Run
