import Verif.Props.Counterless
import Verif.Props.ExchangeDemo

/-!
# An authenticator without a counter, concretely (C98)
-/

namespace WebAuthn.Flask.Run

open Spec Props

/-! ## A registration with the counter zero -/

def regAd0 : AuthData := ⟨rpHash, 0x41, 0, some attested16, none⟩

def regRaw0 : Bytes :=
  rpHash ++ [0x41] ++ [0, 0, 0, 0] ++
    (List.replicate 16 0xaa ++ [0, 16] ++ id16 ++ Demo.keyBytes) ++ []

theorem regRaw0_enc : EncodedAuthData app.env regAd0 regRaw0 :=
  ⟨0x41, [0, 0, 0, 0], _, [], rfl, Demo.sha_length _, rfl, rfl, Demo.bigEndian_of rfl,
    ⟨by decide, [0, 16], Demo.key, Demo.keyBytes, rfl, rfl, rfl, Demo.bigEndian_of rfl, rfl, rfl,
      Demo.keyBytes_enc⟩, ⟨by decide, rfl⟩⟩

def attObj0 : Bytes := (Cbor.enc (.dict (Demo.objMap regRaw0))).toOption.getD []

theorem regRaw0_length : regRaw0.length < 2 ^ 64 := by
  have : Demo.keyBytes.length = 77 := by decide
  simp [regRaw0, rpHash, show ∀ b, (Demo.sha b).length = 32 from Demo.sha_length, this, id16]

theorem attObj0_enc : EncodedNoneAttestation app.env regRaw0 attObj0 := by
  refine ⟨Demo.objMap regRaw0, Demo.lookup_objMap rfl, Demo.lookup_objMap rfl, Demo.lookup_objMap rfl,
    Demo.objMap_plain _, ?_⟩
  obtain ⟨b, hb⟩ := Demo.objMap_enc regRaw0_length
  show Cbor.enc _ = _
  rw [attObj0, hb]
  rfl

theorem attObj0_of : AttObjOf app.env attObj0 ⟨regAd0, .NONE, .none⟩ regRaw0 := by
  obtain ⟨d, h1, h2, h3, h4, h5⟩ := attObj0_enc
  have := (Demo.codec).roundTrip h4 h5 []
  rw [List.append_nil] at this
  exact ⟨d, [], [], this, h3, encodedAuthData_of Demo.codec regRaw0_enc, h1, h2, rfl, rfl⟩

theorem attObj0_loads : ∃ v, app.env.cborLoad attObj0 = .ok (v, []) := by
  obtain ⟨d, -, -, -, h4, h5⟩ := attObj0_enc
  have := (Demo.codec).roundTrip h4 h5 []
  rw [List.append_nil] at this
  exact ⟨_, this⟩

def regCredential0 : Credential := { regCredential16 with
  response := .attestation (clientData "webauthn.create" challenge1) attObj0 }

theorem initial0 : HasInitialCounter app.env regCredential0 0 :=
  ⟨_, _, _, _, rfl, attObj0_of, (authDataOf_head (encodedAuthData_of Demo.codec regRaw0_enc)).2.2.2⟩

/-! ## The run: Ada gets three challenges, registers with the first, logs in with the others -/

def challenge0 : Bytes := List.replicate 64 0xa0

def ask0 : Event := .authenticationRequest (some "ada") challenge0 2000

def sign0 : Event := .registrationResponse (formOf "1" regCredential0 "ada") 5000

/-- The login with the third challenge. -/
def login0 (n : UInt8) : Event :=
  .authenticationResponse (formOf "3" (authCredential16 n challenge0) "ada") 9500

theorem form3 (c : Credential) (name : String) : Submits app (formOf "3" c name) 3 c name :=
  submits_form Demo.json rfl c name

section
variable {rule : CounterRule} {pkgs : Versions} {gs : List Guard}

local notation "rep" => packageReply pkgs app gs

theorem zero_occurs {pre : List Event} {e : Event} {t : Int} {n : Nat} {c : Credential}
    {name : String} (h : Occurs [e1, ask2, ask0] pre e) : ¬ SucceedsBy rep app pre e t n c name := by
  rintro ⟨-, f, he, -⟩
  obtain ⟨post, h⟩ := h
  have : e ∈ [e1, ask2, ask0] := by rw [h]; simp
  rcases he with rfl | rfl <;> simp [e1, ask2, ask0] at this

theorem zero_none {pre : List Event} {e : Event} {id : Bytes} {name : String} {k : CPK}
    (h : Occurs [e1, ask2, ask0] pre e) : ¬ RegistersBy rep app pre e id name k := by
  rintro ⟨f, t, n, c, cdj, ob, o, raw, acd, rfl, hs, hf, -⟩
  exact zero_occurs h ⟨hs, f, Or.inl rfl, hf⟩

variable (asc : Ascending rule) (con : ∀ log, ContractBy rule app.env (pkgs log))
  (serving : ∀ log, ServingBy rule app.env [.ES256] (pkgs log)) (hgs : ∀ g ∈ gs, g ∈ appGuards app)

include hgs

theorem zero_run (evs : List Event) (e : Event) (he : formIn e = none) :
    (packageRun pkgs app gs (evs ++ [e])).2 = (step app e (packageRun pkgs app gs evs).2).2 := by
  rw [packageRun_snoc, serve_admitted (admits_request hgs he)]
  cases e with
  | registrationResponse f1 t1 => cases he
  | authenticationResponse f1 t1 => cases he
  | registrationRequest _ _ _ _ => rfl
  | authenticationRequest _ _ _ => rfl

theorem zero_run1 : (packageRun pkgs app gs [e1]).2 = ⟨[⟨1, "ada", handle1⟩], [], [⟨1, challenge1, 0, 1⟩]⟩ := by
  rw [show [e1] = [] ++ [e1] from rfl, zero_run hgs _ _ rfl]
  rfl

theorem zero_run2 : (packageRun pkgs app gs [e1, ask2]).2 =
    ⟨[⟨1, "ada", handle1⟩], [], [⟨1, challenge1, 0, 1⟩, ⟨2, challenge2, 1000, 1⟩]⟩ := by
  rw [show [e1, ask2] = [e1] ++ [ask2] from rfl, zero_run hgs _ _ rfl, zero_run1 hgs]
  rfl

theorem zero1 : IssuesBy rep [] e1 1 challenge1 0 "ada" := by
  refine ⟨?_, issues1.2⟩
  rw [show rep [] e1 = reply app [] e1 from C97_requests hgs rfl]
  exact issues1.1

theorem zero2 : IssuesBy rep [e1] ask2 2 challenge2 1000 "ada" := by
  refine ⟨?_, Or.inr rfl⟩
  rw [C97_requests hgs rfl, zero_run1 hgs]
  obtain ⟨v, hv, -⟩ := request_reply 2 [] challenge2
  exact ⟨_, v, hv⟩

theorem zero3 : IssuesBy rep [e1, ask2] ask0 3 challenge0 2000 "ada" := by
  refine ⟨?_, Or.inr rfl⟩
  rw [C97_requests hgs rfl, zero_run2 hgs]
  obtain ⟨v, hv, -⟩ := request_reply 3 [] challenge0
  exact ⟨_, v, hv⟩

include asc con serving

theorem zero_sign : rep [e1, ask2, ask0] sign0 = success :=
  C97_registration (app := app) (pre := []) (e := e1) (o := ⟨regAd0, .NONE, .none⟩)
    (c := regCredential0) (cdj := clientData "webauthn.create" challenge1) (ob := attObj0)
    (acd := attested16) (k := Demo.key) asc con hgs (serving _)
    ⟨[ask2, ask0], rfl⟩ (zero1 hgs) (by decide) (fun _ _ _ _ _ h => zero_occurs h) (form1 _ _) rfl
    (clientData_text _ _) (C38_base64url_encoding _).1 attObj0_of attObj0_loads rfl rfl rfl storedKey_eq
    (rpHash_enc regRaw0_enc rfl) (Demo.flagSet_enc regRaw0_enc (by decide)) (fun _ he => by cases he)
    ⟨_, rfl, rfl⟩ key16_profile rfl (by decide)
    (fun _ _ _ _ h => zero_none h) (fun _ _ _ _ h => zero_none h)

theorem zero_registers : RegistersBy rep app [e1, ask2, ask0] sign0 id16 "ada" Demo.key :=
  ⟨_, _, _, regCredential0, _, _, _, regRaw0, attested16, rfl, zero_sign asc con serving hgs,
    form1 _ _, rfl, rfl, attObj0_of, rfl, rfl⟩

omit asc serving in
theorem zero_users (more : List Event) :
    (⟨1, "ada", handle1⟩ : User) ∈ (packageRun pkgs app gs (e1 :: more)).2.users := by
  refine package_users con [e1] more ?_
  rw [zero_run1 hgs]
  simp

/-- Logins that may follow are honest, if the challenge was not used. -/
theorem zero_honest {evs mid : List Event} {n : UInt8} (hevs : evs = [e1, ask2, ask0, sign0] ++ mid)
    {e : Event} {pre : List Event} {i : Nat} {ch : Bytes} {t now : Int} {f : Form} (ho : Occurs evs pre e)
    (hi : IssuesBy rep pre e i ch t "ada") (ht : now - t ≤ 60000)
    (hf : Submits app f i (authCredential16 n ch) "ada")
    (hunused : ∀ pre e t c name, Occurs evs pre e → ¬ SucceedsBy rep app pre e t i c name) :
    HonestLogin rep (packageRun pkgs app gs evs).2.users app evs f now (authCredential16 n ch) (authAd n) := by
  refine .mk (pre' := [e1, ask2, ask0]) (e' := sign0) ho hi ht hunused ⟨mid, by rw [hevs]; rfl⟩
    (zero_registers asc con serving hgs) key16_profile hf rfl (clientData_text _ _) (C38_base64url_encoding _).1 ?_
    (encodedAuthData_of Demo.codec (authRaw_enc n)) (rpHash_enc (authRaw_enc n) rfl)
    (Demo.flagSet_enc (authRaw_enc n) (show (1 : Nat).testBit 0 = true by decide)) (fun _ he => by cases he)
    (by rintro ⟨e, he, -⟩; cases he) (signature_ok n ch)
  intro h hh
  obtain rfl := Option.some.inj hh
  refine ⟨⟨1, "ada", handle1⟩, ?_, rfl, rfl⟩
  rw [hevs]
  exact zero_users con hgs _

theorem zero_honest2 {n : UInt8} : HonestLogin rep (packageRun pkgs app gs [e1, ask2, ask0, sign0]).2.users app
    [e1, ask2, ask0, sign0] (formOf "2" (authCredential16 n challenge2) "ada") 9000
    (authCredential16 n challenge2) (authAd n) := by
  refine zero_honest (mid := []) asc con serving hgs rfl (pre := [e1]) (e := ask2) ⟨[ask0, sign0], rfl⟩ (zero2 hgs)
    (by decide) (form2 _ _) ?_
  rintro pre e t c name h hs
  rcases occurs_snoc_cases (evs := [e1, ask2, ask0]) h with h | ⟨rfl, rfl⟩
  · exact zero_occurs h hs
  · obtain ⟨-, f, he, hf⟩ := hs
    rcases he with he | he
    · cases he
      exact absurd (submits_unique hf (form1 _ _)).1 (by decide)
    · cases he

theorem zero_honest3 {n m : UInt8} : HonestLogin rep
    (packageRun pkgs app gs [e1, ask2, ask0, sign0, login16 m]).2.users app
    [e1, ask2, ask0, sign0, login16 m] (formOf "3" (authCredential16 n challenge0) "ada") 9500
    (authCredential16 n challenge0) (authAd n) := by
  refine zero_honest (mid := [login16 m]) asc con serving hgs rfl (pre := [e1, ask2]) (e := ask0)
    ⟨[sign0, login16 m], rfl⟩ (zero3 hgs) (by decide) (form3 _ _) ?_
  rintro pre e t c name h hs
  rcases occurs_snoc_cases (evs := [e1, ask2, ask0, sign0]) h with h | ⟨rfl, rfl⟩
  · rcases occurs_snoc_cases (evs := [e1, ask2, ask0]) h with h | ⟨rfl, rfl⟩
    · exact zero_occurs h hs
    · obtain ⟨-, f, he, hf⟩ := hs
      rcases he with he | he
      · cases he
        exact absurd (submits_unique hf (form1 _ _)).1 (by decide)
      · cases he
  · obtain ⟨-, f, he, hf⟩ := hs
    rcases he with he | he
    · cases he
    · cases he
      exact absurd (submits_unique hf (form2 _ _)).1 (by decide)

omit hgs asc con serving in
theorem zero_begins {pre : List Event} {e : Event} {m : Nat} (h : Occurs [e1, ask2, ask0, sign0] pre e)
    (hb : BeginsBy rep app pre e id16 m) : m = 0 := by
  obtain ⟨f, t, i, c, name, rfl, hs, hf, -, hc⟩ := hb
  rcases occurs_snoc_cases (evs := [e1, ask2, ask0]) h with h | ⟨-, he⟩
  · exact absurd ⟨hs, f, Or.inl rfl, hf⟩ (zero_occurs h)
  · cases he
    obtain ⟨-, rfl, -⟩ := submits_unique hf (form1 _ _)
    exact hasInitialCounter_unique hc initial0

omit hgs asc con serving in
theorem zero_fresh {pre : List Event} {e : Event} {m : Nat} (h : Occurs [e1, ask2, ask0, sign0] pre e) :
    ¬ AuthenticatesBy rep app pre e id16 m := by
  rintro ⟨f, t, n, c, name, rfl, hs, hf, -⟩
  rcases occurs_snoc_cases (evs := [e1, ask2, ask0]) h with h | ⟨-, he⟩
  · exact absurd ⟨hs, f, Or.inr rfl, hf⟩ (zero_occurs h)
  · cases he

/-- The first login is accepted, with whatever counter and whatever rule (an instance of
`C98_login`). -/
theorem zero_login (n : UInt8) : rep [e1, ask2, ask0, sign0] (login16 n) = success :=
  C98_login asc con Demo.codec hgs serving (zero_honest2 asc con serving hgs) (fun _ _ _ h h' => absurd h' (zero_fresh h))
    (fun _ _ _ h h' h0 => absurd (zero_begins h h') h0)

theorem zero_authenticates (n : UInt8) : AuthenticatesBy rep app [e1, ask2, ask0, sign0] (login16 n) id16 n.toNat :=
  ⟨_, _, _, _, _, rfl, zero_login asc con serving hgs n, form2 _ _, rfl, counter16 n challenge2⟩

omit hgs asc con serving in
theorem zero_counted : NeverCounted rep app [e1, ask2, ask0, sign0, login16 0] id16 := by
  rintro pre e m h hb
  rcases occurs_snoc_cases (evs := [e1, ask2, ask0, sign0]) h with h | ⟨rfl, rfl⟩
  · rcases hb with hb | hb
    · exact absurd hb (zero_fresh h)
    · exact zero_begins h hb
  · rcases hb with ⟨f, t, i, c, name, he, -, hf, -, hc⟩ | ⟨f, t, i, c, name, he, -⟩
    · cases he
      obtain ⟨-, rfl, -⟩ := submits_unique hf (form2 _ _)
      exact hasCounter_unique hc (counter16 0 challenge2)
    · cases he

end

/-! ## The application as it is -/

theorem code_users (evs : List Event) :
    (packageRun (fun _ => codePackage app.env) app [] evs).2 = run app evs := by
  induction evs using List.reverseRecOn with
  | nil => rfl
  | append_singleton evs e ih =>
    rw [packageRun_snoc, serve_admitted (show Admitted _ app [] evs e from rfl), ih]
    simp only [run, List.foldl_append, List.foldl_cons, List.foldl_nil]
    cases e <;> rfl

/-- C98: the application does not serve holders of authenticators without a counter: they log in
once. -/
theorem C98_counterless_refuted : ¬ ServesCounterless (reply app) (fun evs => (run app evs).users) app := by
  have con : ∀ _ : ServedLog, Contract app.env (codePackage app.env) := fun _ => C96_code Demo.refuses_mark
  have serving : ∀ _ : ServedLog, Serving app.env [.ES256] (codePackage app.env) :=
    fun _ => C97_code_serves Demo.json _
  have hgs : ∀ g ∈ ([] : List Guard), g ∈ appGuards app := by simp
  intro h
  simp only [← code_users, reply_package] at h
  have := h _ _ _ _ _ (zero_honest3 (n := 0) (m := 0) above_ascending con serving hgs) rfl zero_counted
  exact C98_locked_out con ⟨[], rfl⟩ (zero_authenticates above_ascending con serving hgs 0)
    ⟨_, _, _, _, _, rfl, this, form3 _ _, rfl, counter16 0 challenge0⟩

/-! ## With the changed line -/

abbrev zeroed (gs : List Guard) (evs : List Event) (e : Event) : Reply :=
  packageReply (fun _ => counterlessPackage app.env) app gs evs e

theorem zeroed_contract (_ : ServedLog) : ContractBy AboveOrZero app.env (counterlessPackage app.env) := by
  rw [← C98_same]
  exact C98_contract (C96_code Demo.refuses_mark)

theorem zeroed_serves (_ : ServedLog) : ServingBy AboveOrZero app.env [.ES256] (counterlessPackage app.env) := by
  rw [← C98_same]
  exact C98_serves (C97_code_serves Demo.json _)

/-- The second login is accepted (an instance of `C98_counterless`), … -/
theorem zeroed_login {gs : List Guard} (hgs : ∀ g ∈ gs, g ∈ appGuards app) :
    zeroed gs [e1, ask2, ask0, sign0, login16 0] (login0 0) = success :=
  C98_counterless aboveOrZero_ascending (Or.inr ⟨rfl, rfl⟩) zeroed_contract Demo.codec hgs zeroed_serves _ _ _ _ _
    (zero_honest3 aboveOrZero_ascending zeroed_contract zeroed_serves hgs) rfl zero_counted

/-- … but none with zero after a counter other than zero (an instance of `C98_counters`). -/
example : zeroed [] [e1, ask2, ask0, sign0, login16 6] (login0 0) ≠ success := fun h =>
  absurd (C98_counters zeroed_contract ⟨[], rfl⟩
    (zero_authenticates aboveOrZero_ascending zeroed_contract zeroed_serves (gs := []) (by simp) 6)
    ⟨_, _, _, _, _, rfl, h, form3 _ _, rfl, counter16 0 challenge0⟩) (by decide)

/-- With the check of challenges the guarantees hold (an instance of `C98_guarantees`), so nobody uses
the response again, … -/
theorem zeroed_holds : UpheldBy AboveOrZero (zeroed (appGuards app)) app :=
  C98_guarantees (by simp [appGuards]) zeroed_contract Demo.codec Demo.json Demo.refuses_mark

example : zeroed (appGuards app) [e1, ask2, ask0, sign0, login16 0] (login16 0) ≠ success := fun h =>
  package_single_use (by simp [appGuards]) [e1, ask2, ask0, sign0] (login16 0) [] (login16 0) 9000 9000 2 _ _ "ada" "ada"
    ⟨zero_login aboveOrZero_ascending zeroed_contract zeroed_serves (fun _ h => h) 0, _, Or.inr rfl, form2 _ _⟩
    ⟨h, _, Or.inr rfl, form2 _ _⟩

/-- … and with the other repairs too (instances of `C98_strong` and `C98_strict_contract`). -/
example : UpheldStrictlyBy AboveOrZero
    (packageReply (fun _ => counterless (repairedPackage app.env appPolicy)) app (appGuards app)) app :=
  C98_strong (fun _ => C98_strict_contract (C96_repaired (p := appPolicy) rfl)) Demo.codec Demo.json Demo.refuses_mark
    fun _ h => h

/-! ## Without the check of challenges -/

def approval0 : Approval :=
  ⟨"http://localhost:5000", "webauthn.get", challenge2, clientData "webauthn.get" challenge2, authRaw 0⟩

/-- The same response is accepted again. -/
theorem zeroed_again : zeroed [] [e1, ask2, ask0, sign0, login16 0] (login16 0) = success := by
  have hgs : ∀ g ∈ ([] : List Guard), g ∈ appGuards app := by simp
  refine C97_login (app := app) (pkgs := fun _ => counterlessPackage app.env) (gs := [])
    (evs := [e1, ask2, ask0, sign0, login16 0]) (c := authCredential16 0 challenge2) (ad := authAd 0) aboveOrZero_ascending zeroed_contract
    Demo.codec hgs (zeroed_serves []) (pre := [e1]) (e := ask2) (pre' := [e1, ask2, ask0]) (e' := sign0)
    ⟨[ask0, sign0, login16 0], rfl⟩ (zero2 hgs) (by decide) (by simp) ⟨[login16 0], rfl⟩
    (zero_registers aboveOrZero_ascending zeroed_contract zeroed_serves hgs) key16_profile (form2 _ _) rfl
    (clientData_text _ _) (C38_base64url_encoding _).1 ?_ (encodedAuthData_of Demo.codec (authRaw_enc 0))
    (rpHash_enc (authRaw_enc 0) rfl) (Demo.flagSet_enc (authRaw_enc 0) (show (1 : Nat).testBit 0 = true by decide))
    (fun _ he => by cases he) (by rintro ⟨e, he, -⟩; cases he) (signature_ok 0 challenge2) ?_ ?_
  · intro h hh
    obtain rfl := Option.some.inj hh
    exact ⟨⟨1, "ada", handle1⟩, zero_users zeroed_contract hgs _, rfl, rfl⟩
  · intro pre e m h1 h2
    exact Or.inr ⟨by rw [zero_counted pre e m h1 (Or.inl h2)]; rfl, rfl⟩
  · intro pre e m h1 h2 h3
    exact absurd (zero_counted pre e m h1 (Or.inr h2)) h3

theorem holder0 : Holder app.env Demo.key (Sent app [e1, ask2, ask0, sign0, login16 0, login16 0]) (· = approval0) := by
  have key : ∀ cdj raw sig, Sent app [e1, ask2, ask0, sign0, login16 0, login16 0] cdj raw sig →
      ∃ a, a = approval0 ∧ cdj = a.cdj ∧ raw = a.raw := by
    rintro cdj raw sig ⟨f, t, n, c, name, handle, hm, hf, hc⟩
    simp only [e1, ask2, ask0, sign0, login16, List.mem_cons, List.not_mem_nil, or_false, reduceCtorEq, false_or, or_self,
      Event.authenticationResponse.injEq] at hm
    obtain ⟨rfl, -⟩ := hm
    obtain ⟨-, rfl, -⟩ := submits_unique hf (form2 _ _)
    simp only [authCredential16, authCredential, Response.assertion.injEq] at hc
    refine ⟨approval0, rfl, ?_, ?_⟩
    · simp only [approval0, hc.1]
    · simp only [approval0, hc.2.1]
  refine ⟨?_, ?_, ?_, Demo.sha_length⟩
  · rintro a rfl
    simp only [approval0]
    exact ⟨_, (C38_base64url_encoding challenge2).1, clientData_text "webauthn.get" challenge2⟩
  · intro cdj raw sig hs _
    obtain ⟨a, ha, h1, h2⟩ := key cdj raw sig hs
    exact ⟨a, ha, by rw [h1, h2]⟩
  · rintro cdj raw sig a hs ha _
    obtain ⟨b, hb, h1, -⟩ := key cdj raw sig hs
    rw [h1, ha, hb]

/-- C98: the changed line alone does not keep the guarantees: then one approval is good for two logins,
if authenticators have no counter. -/
theorem C98_alone_refuted : ¬ ∀ app : App, CodecLaws app.env → JsonLaw app.env → JsonRefusesMark app.env →
    UpheldBy AboveOrZero (packageReply (fun _ => counterlessPackage app.env) app []) app := by
  intro h
  have hgs : ∀ g ∈ ([] : List Guard), g ∈ appGuards app := by simp
  obtain ⟨appr, h1, h2⟩ := (h app Demo.codec Demo.json Demo.refuses_mark).oneEach
    [e1, ask2, ask0, sign0, login16 0, login16 0] [e1, ask2, ask0] sign0 id16 "ada" Demo.key _ holder0
    ⟨[login16 0, login16 0], rfl⟩ (zero_registers aboveOrZero_ascending zeroed_contract zeroed_serves hgs)
  have n4 : LoginNumber (zeroed []) app [e1, ask2, ask0, sign0, login16 0, login16 0] (authCredential16 0 challenge2) 4 :=
    ⟨_, _, _, _, rfl, zero_login aboveOrZero_ascending zeroed_contract zeroed_serves hgs 0, form2 _ _⟩
  have n5 : LoginNumber (zeroed []) app [e1, ask2, ask0, sign0, login16 0, login16 0] (authCredential16 0 challenge2) 5 :=
    ⟨_, _, _, _, rfl, zeroed_again, form2 _ _⟩
  obtain ⟨a, _, ha, rfl, -⟩ := h1 4 _ n4 rfl
  obtain ⟨b, _, hb, rfl, -⟩ := h1 5 _ n5 rfl
  exact absurd (h2 4 5 _ _ n4 rfl n5 rfl (ha.trans hb.symm)) (by decide)

end WebAuthn.Flask.Run
