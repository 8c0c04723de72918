import Verif.Props.ContractDemo

/-!
# The package is exchanged while the example application runs, concretely (C97)
-/

namespace WebAuthn.Flask.Run

open Spec Props

/-- The package is repaired after three requests. -/
def repairedLater : Versions := fun log =>
  if log.length < 3 then codePackage app.env else repairedPackage app.env appPolicy

theorem later_contract (log : ServedLog) : Contract app.env (repairedLater log) := by
  unfold repairedLater
  split
  · exact C96_code Demo.refuses_mark
  · exact (C96_repaired (p := appPolicy) rfl).toContractBy

theorem later_serves (log : ServedLog) : Serving app.env [.ES256] (repairedLater log) := by
  unfold repairedLater
  split
  · exact C97_code_serves Demo.json _
  · exact C97_repaired_serves (p := appPolicy) Demo.json Demo.refuses_mark

abbrev later (evs : List Event) (e : Event) : Reply := packageReply repairedLater app (appGuards app) evs e

theorem later1 : IssuesBy later [] e1 1 challenge1 0 "ada" := by
  refine ⟨?_, issues1.2⟩
  rw [show later [] e1 = reply app [] e1 from C97_requests (fun _ h => h) rfl]
  exact issues1.1

theorem later2 : IssuesBy later [e1] ask2 2 challenge2 1000 "ada" := by
  refine ⟨?_, Or.inr rfl⟩
  rw [show later [e1] ask2 = reply app [e1] ask2 from C97_requests (fun _ h => h) rfl]
  obtain ⟨v, hv, -⟩ := request_reply 2 [] challenge2
  exact ⟨_, v, hv⟩

theorem later_nothing {pre : List Event} {e : Event} {t : Int} {n : Nat} {c : Credential}
    {name : String} (h : Occurs [e1, ask2] pre e) : ¬ SucceedsBy later app pre e t n c name := by
  rintro ⟨-, f, he, -⟩
  obtain ⟨post, h⟩ := h
  have : e ∈ [e1, ask2] := by rw [h]; simp
  rcases he with rfl | rfl <;> simp [e1, ask2] at this

theorem later_none {pre : List Event} {e : Event} {id : Bytes} {name : String} {k : CPK}
    (h : Occurs [e1, ask2] pre e) : ¬ RegistersBy later app pre e id name k := by
  rintro ⟨f, t, n, c, cdj, ob, o, raw, acd, rfl, hs, hf, -⟩
  exact later_nothing h ⟨hs, f, Or.inl rfl, hf⟩

theorem attObj16_loads : ∃ v, app.env.cborLoad attObj16 = .ok (v, []) := by
  obtain ⟨d, -, -, -, h4, h5⟩ := attObj16_enc
  have := (Demo.codec).roundTrip h4 h5 []
  rw [List.append_nil] at this
  exact ⟨_, this⟩

theorem key16_profile : Profile Demo.key := ⟨rfl, rfl, rfl, _, _, ⟨_, rfl, rfl⟩, rfl, .es256⟩

/-- Ada registers with the package as it is (an instance of `C97_registration`), … -/
theorem later_sign : later [e1, ask2] sign16 = success :=
  C97_registration (app := app) (pre := []) (e := e1) (o := ⟨regAd16, .NONE, .none⟩)
    (c := regCredential16) (cdj := clientData "webauthn.create" challenge1) (ob := attObj16)
    (acd := attested16) (k := Demo.key) above_ascending later_contract (fun _ h => h) (later_serves _)
    ⟨[ask2], rfl⟩ later1 (by decide) (fun _ _ _ _ _ h => later_nothing h) (form1 _ _) rfl
    (clientData_text _ _) (C38_base64url_encoding _).1 attObj16_of attObj16_loads rfl rfl rfl storedKey_eq
    (rpHash_enc regRaw16_enc rfl) (Demo.flagSet_enc regRaw16_enc (by decide)) (fun _ he => by cases he)
    ⟨_, rfl, rfl⟩ key16_profile rfl (by decide)
    (fun _ _ _ _ h => later_none h) (fun _ _ _ _ h => later_none h)

theorem later_registers : RegistersBy later app [e1, ask2] sign16 id16 "ada" Demo.key :=
  ⟨_, _, _, regCredential16, _, _, _, regRaw16, attested16, rfl, later_sign,
    form1 _ _, rfl, rfl, attObj16_of, rfl, rfl⟩

theorem later_begins : BeginsBy later app [e1, ask2] sign16 id16 5 :=
  ⟨_, _, _, _, _, rfl, later_sign, form1 _ _, rfl, initial16⟩

theorem later_run1 : (packageRun repairedLater app (appGuards app) [e1]).2 =
    ⟨[⟨1, "ada", handle1⟩], [], [⟨1, challenge1, 0, 1⟩]⟩ := rfl

/-- … and logs in with the repaired package (an instance of `C97_login`). -/
theorem later_login (n : UInt8) (hn : 5 < n.toNat) : later [e1, ask2, sign16] (login16 n) = success := by
  refine C97_login (app := app) above_ascending later_contract Demo.codec (fun _ h => h) (later_serves _) (pre := [e1])
    (pre' := [e1, ask2]) (e := ask2) (e' := sign16) (c := authCredential16 n challenge2)
    (cdj := clientData "webauthn.get" challenge2)
    (raw := authRaw n) (sig := signature n challenge2) (handle := some handle1) (ad := authAd n)
    (k := Demo.key) ⟨[sign16], rfl⟩ later2 (by decide) ?_ ⟨[], rfl⟩ later_registers key16_profile (form2 _ _) rfl
    (clientData_text _ _) (C38_base64url_encoding _).1 ?_ (encodedAuthData_of Demo.codec (authRaw_enc n))
    (rpHash_enc (authRaw_enc n) rfl)
    (Demo.flagSet_enc (authRaw_enc n) (show (1 : Nat).testBit 0 = true by decide)) (fun _ he => by cases he) ?_
    (signature_ok n challenge2) ?_ ?_
  · rintro - pre e t c name h hs
    rcases occurs3 h with h | ⟨rfl, rfl⟩
    · exact later_nothing h hs
    · obtain ⟨-, f, he, hf⟩ := hs
      rcases he with he | he
      · cases he
        exact absurd (submits_unique hf (form1 _ _)).1 (by decide)
      · cases he
  · intro h hh
    obtain rfl := Option.some.inj hh
    refine ⟨⟨1, "ada", handle1⟩, ?_, rfl, rfl⟩
    rw [show [e1, ask2, sign16] = [e1] ++ [ask2, sign16] from rfl]
    refine package_users later_contract _ _ ?_
    rw [later_run1]
    simp
  · rintro ⟨e, he, -⟩
    cases he
  · rintro pre e m h ⟨f, t, n, c, name, rfl, hs, hf, -⟩
    rcases occurs3 h with h | ⟨-, he⟩
    · exact absurd ⟨hs, f, Or.inr rfl, hf⟩ (later_nothing h)
    · cases he
  · rintro pre e m h ⟨f, t, i, c, name, rfl, hs, hf, -, hc⟩ -
    rcases occurs3 h with h | ⟨-, he⟩
    · exact absurd ⟨hs, f, Or.inl rfl, hf⟩ (later_nothing h)
    · cases he
      obtain ⟨-, rfl, -⟩ := submits_unique hf (form1 _ _)
      rw [hasInitialCounter_unique hc initial16]
      exact hn

/-- That login was with the repaired package, the registration before it was not. -/
example : (packageRun repairedLater app (appGuards app) [e1, ask2]).1.length = 2 := rfl

theorem later_log : (packageRun repairedLater app (appGuards app) [e1, ask2, sign16]).1.length = 3 := by
  have h := admitted_of_success later_sign
  have := packageRun_snoc (pkgs := repairedLater) (app := app) (gs := appGuards app) [e1, ask2] sign16
  rw [serve_admitted h] at this
  rw [show [e1, ask2, sign16] = [e1, ask2] ++ [sign16] from rfl, this]
  simp only [List.length_append]
  rfl

example : repairedLater (packageRun repairedLater app (appGuards app) [e1, ask2, sign16]).1 =
    repairedPackage app.env appPolicy := by
  rw [repairedLater, later_log]
  rfl

/-- The guarantees hold throughout (an instance of `C97_guarantees`), so a second login with a
smaller counter is refused. -/
example : later [e1, ask2, sign16, login16 7] (login16 6) ≠ success := fun h =>
  absurd ((C97_guarantees later_contract Demo.codec Demo.json Demo.refuses_mark (appGuards app)).increasing
    [e1, ask2, sign16, login16 7] [e1, ask2, sign16] (login16 7) (login16 6) id16 7 6 ⟨[], rfl⟩
    ⟨_, _, _, _, _, rfl, later_login 7 (by decide), form2 _ _, rfl, counter16 7 challenge2⟩
    ⟨_, _, _, _, _, rfl, h, form2 _ _, rfl, counter16 6 challenge2⟩) (by unfold Above; decide)

/-- With the repaired package from the beginning it is the one application (instances of `C97_strong`
and `C97_registers`). -/
example : UpheldStrictly fixed app :=
  C97_strong (fun _ => C96_repaired (p := appPolicy) rfl) Demo.codec Demo.json Demo.refuses_mark fun _ h => h

example : RawIdAttests u2fCredential16 regAd16 ∧ AskedFor [.ES256] regAd16 :=
  C97_registers (pkgs := fun _ => repairedPackage app.env appPolicy) (C96_repaired (p := appPolicy) rfl) fixed_sign
    (form1 _ _) rfl U2F16.obj_of

end WebAuthn.Flask.Run
