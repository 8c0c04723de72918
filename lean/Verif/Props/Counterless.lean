import Verif.Model.Counterless
import Verif.Spec.Counterless
import Verif.Props.ContractServes

/-!
# Authenticators without a counter (C98)
-/

namespace WebAuthn.Flask

open WebAuthn WebAuthn.Spec WebAuthn.Props

theorem aboveOrZero_ascending : Ascending AboveOrZero where
  le := by rintro n c (h | ⟨rfl, rfl⟩) <;> omega
  down := by
    rintro m n c (h | ⟨rfl, rfl⟩) hm
    · exact Or.inl (Int.lt_of_le_of_lt hm h)
    · exact Or.inr ⟨by omega, rfl⟩

/-! ## The changed line -/

theorem checkSignCount_without {stored : Option Int} {n : Nat} {ignore : Bool} :
    checkSignCount (stored.filter (· ≠ 0)) n ignore = Counterless.checkSignCount stored n ignore := by
  cases stored with
  | none => rfl
  | some m =>
    by_cases h : m = 0
    · simp [h, Option.filter, checkSignCount, Counterless.checkSignCount]
    · simp [h, Option.filter, checkSignCount, Counterless.checkSignCount]

theorem assertionChecks_without {env : Env} {a : AssertionArgs} {al : List Origin} {cd : CredentialData} :
    assertionChecks env a al (Counterless.withoutZero cd) = Counterless.assertionChecks env a al cd := by
  simp only [assertionChecks, Counterless.assertionChecks, Counterless.withoutZero, checkSignCount_without]

/-- C98: the changed line does what a registrar does that tells of no counter instead of zero. -/
theorem C98_same (env : Env) : counterless (codePackage env) = counterlessPackage env := by
  have h : ∀ {σ : Type} (reg : Registrar σ) a s, handleAssertion env (Counterless.withoutZeros reg) a s =
      Counterless.handleAssertion env reg a s := by
    rintro σ ⟨w1, w2, read⟩ a s
    simp only [handleAssertion, Counterless.handleAssertion]
    cases assertionPre env a with
    | error e => rfl
    | ok al =>
      simp only [Counterless.withoutZeros]
      rcases read a.credential.rawId s with ⟨e | _ | cd, s1⟩
      · simp only [Except.map, checkRead]
        cases e.isException <;> rfl
      · rfl
      · simp only [Except.map, Option.map, checkRead, assertionChecks_without]
        cases Counterless.assertionChecks env a al cd <;> rfl
  simp only [counterless, codePackage, counterlessPackage]
  congr
  funext σ reg a s
  exact h reg a s

/-- What such a registrar tells. -/
theorem withoutZeros_read {σ : Type} {reg : Registrar σ} {id : Bytes} {s s1 : σ} {cd : CredentialData} :
    (Counterless.withoutZeros reg).getCredentialData id s = (.ok (some cd), s1) ↔
      ∃ cd', reg.getCredentialData id s = (.ok (some cd'), s1) ∧ Counterless.withoutZero cd' = cd := by
  simp only [Counterless.withoutZeros]
  rcases reg.getCredentialData id s with ⟨_ | _ | cd', s2⟩ <;> simp [Except.map, and_comm]

theorem counterOk_without {stored : Option Int} {env : Env} {raw : Bytes} {ad : AuthData} {ignore : Bool}
    (had : AuthDataOf env raw ad) : CounterOkBy Above (stored.filter (· ≠ 0)) raw ignore ↔
      CounterOkBy AboveOrZero stored raw ignore := by
  constructor
  · intro h n hn hi
    by_cases h0 : n = 0
    · refine ⟨ad.signCount, (authDataOf_head had).2.2.2, ?_⟩
      unfold AboveOrZero
      omega
    · obtain ⟨c, h1, h2⟩ := h n (by simp [hn, Option.filter, h0]) hi
      exact ⟨c, h1, Or.inl h2⟩
  · intro h n hn hi
    obtain ⟨hn, h0⟩ := Option.filter_eq_some_iff.mp hn
    obtain ⟨c, h1, h2 | ⟨rfl, -⟩⟩ := h n hn hi
    · exact ⟨c, h1, h2⟩
    · simp at h0

/-- C98: with the changed line a login is accepted exactly if it was before, but for the counter,
which is compared as WebAuthn has it. -/
theorem C98_exact {σ : Type} {env : Env} {reg : Registrar σ} {a : AssertionArgs} {s s' : σ} :
    Counterless.handleAssertion env reg a s = (.ok (), s') ↔
      ExpectedOk env a.expectedOrigin ∧ AllowOk a.allowCredentials a.credential.rawId ∧
      ∃ cd s1 user rp ad cdj raw sig handle,
        reg.getCredentialData a.credential.rawId s = (.ok (some cd), s1) ∧
        a.credential.response = .assertion cdj raw sig handle ∧
        UserOk cd.user a.user handle user ∧ RpOk cd.rp a.rp rp ∧
        ClientOk env cdj "webauthn.get" a.expectedChallenge a.expectedOrigin a.tokenBinding ∧
        AuthOk env raw ad rp.id a.requireUserVerification a.expectedExtensions ∧
        SignedBy env cd.publicKey sig (raw ++ env.sha256 cdj) ∧
        CounterOkBy AboveOrZero cd.signatureCount raw a.ignoreCloneError ∧
        reg.registerAssertion ⟨a.credential, ad, user, rp⟩ s1 = (.ok none, s') := by
  have h := congrArg (fun p : Package => p.assertion reg a s) (C98_same env)
  have h : handleAssertion env (Counterless.withoutZeros reg) a s = Counterless.handleAssertion env reg a s := h
  rw [← h, assertion_accepts]
  simp only [withoutZeros_read]
  constructor
  · rintro ⟨h1, h2, cd, s1, user, rp, ad, ⟨cd', h3, rfl⟩, ⟨cdj, raw, sig, handle, g1, g2, g3, g4, g5, g6, g7⟩, h5⟩
    exact ⟨h1, h2, cd', s1, user, rp, ad, cdj, raw, sig, handle, h3, g1, g2, g3, g4, g5, g6,
      (counterOk_without g5.1).mp g7, h5⟩
  · rintro ⟨h1, h2, cd, s1, user, rp, ad, cdj, raw, sig, handle, h3, g1, g2, g3, g4, g5, g6, g7, h5⟩
    exact ⟨h1, h2, _, s1, user, rp, ad, ⟨cd, h3, rfl⟩, ⟨cdj, raw, sig, handle, g1, g2, g3, g4, g5, g6,
      (counterOk_without g5.1).mpr g7⟩, h5⟩

/-! ## The contract -/

theorem withoutZeros_state {σ : Type} {reg : Registrar σ} {id : Bytes} {s : σ} :
    ((Counterless.withoutZeros reg).getCredentialData id s).2 = (reg.getCredentialData id s).2 := rfl

/-- C98: whatever package has the contract has it with the rule of WebAuthn in front of registrars
that tell of no zero. -/
theorem C98_contract {env : Env} {pkg : Package} (con : Contract env pkg) :
    ContractBy AboveOrZero env (counterless pkg) where
  registers := con.registers
  registersNot := con.registersNot
  logsIn := by
    intro σ reg a s s' h
    obtain ⟨cd, s1, user, rp, ad, cdj, raw, sig, handle, h1, h2, h3, h4, h5, h6, h7, h8, h9, h10, h11⟩ :=
      con.logsIn (Counterless.withoutZeros reg) a s s' h
    obtain ⟨cd', h0, rfl⟩ := withoutZeros_read.mp h1
    exact ⟨cd', s1, user, rp, ad, cdj, raw, sig, handle, h0, h2, h3, h4, h5, h6, h7, h8, h9,
      (counterOk_without h6).mp h10, h11⟩
  logsInNot := by
    intro σ reg a s s' e h
    exact con.logsInNot (Counterless.withoutZeros reg) a s s' e h

theorem C98_strict_contract {env : Env} {algs : List Alg} {pkg : Package} (con : StrictContract env algs pkg) :
    StrictContractBy AboveOrZero env algs (counterless pkg) where
  toContractBy := C98_contract con.toContractBy
  attests := con.attests

/-- C98: and who was served is served, also with counters that stay zero. -/
theorem C98_serves {env : Env} {algs : List Alg} {pkg : Package} (serving : Serving env algs pkg) :
    ServingBy AboveOrZero env algs (counterless pkg) where
  registers := serving.registers
  logsIn := by
    intro σ reg a s s' cd s1 user rp ad cdj raw sig handle h1 h2 h3 h4 h5 h6 h7 h8 h9 h10 h11 h12 h13 h14 h15
    exact serving.logsIn (Counterless.withoutZeros reg) a s s' (Counterless.withoutZero cd) s1 user rp ad cdj raw sig
      handle h1 h2 h3 (withoutZeros_read.mpr ⟨cd, h4, rfl⟩) h5 h6 h7 h8 h9 h10 h11 h12 h13
      ((counterOk_without h9.1).mpr h14) h15

/-! ## The application -/

section
variable {app : App} {pkgs : Versions} {gs : List Guard} {rule : CounterRule}

/-- C98: with the rule of the code, whoever logged in with the counter zero never does so again,
whatever packages are installed and whatever checks there are. -/
theorem C98_locked_out (con : ∀ log, Contract app.env (pkgs log)) {evs pre : List Event} {e e' : Event} {id : Bytes}
    (ho : Occurs evs pre e) (h : AuthenticatesBy (packageReply pkgs app gs) app pre e id 0) :
    ¬ AuthenticatesBy (packageReply pkgs app gs) app evs e' id 0 := fun h' =>
  above_irrefl 0 (package_increasing above_ascending con ho h h')

theorem reply_package : reply app = packageReply (fun _ => codePackage app.env) app [] := by
  funext evs e
  rw [C96_same, C84_no_guards]

/-- C98: the same for the application as it is. -/
theorem C98_locked_out_app (law : JsonRefusesMark app.env) {evs pre : List Event} {e e' : Event} {id : Bytes}
    (ho : Occurs evs pre e) (h : AuthenticatesBy (reply app) app pre e id 0) :
    ¬ AuthenticatesBy (reply app) app evs e' id 0 := by
  rw [reply_package] at h ⊢
  exact C98_locked_out (fun _ => C96_code law) ho h

/-- C98: with a rule that lets zero follow zero, holders of authenticators without a counter log in
again and again, and so do others with counters that may follow those before. -/
theorem C98_login (asc : Ascending rule) (con : ∀ log, ContractBy rule app.env (pkgs log))
    (codec : CodecLaws app.env) (hgs : ∀ g ∈ gs, g ∈ appGuards app) {algs : List Alg}
    (serving : ∀ log, ServingBy rule app.env algs (pkgs log))
    {evs : List Event} {f : Form} {now : Int} {c : Credential} {ad : AuthData}
    (h : HonestLogin (packageReply pkgs app gs) (packageRun pkgs app gs evs).2.users app evs f now c ad)
    (hcount : ∀ pre e m, Occurs evs pre e →
      AuthenticatesBy (packageReply pkgs app gs) app pre e c.rawId m → rule m ad.signCount)
    (hinitial : ∀ pre e m, Occurs evs pre e →
      BeginsBy (packageReply pkgs app gs) app pre e c.rawId m → m ≠ 0 → m < ad.signCount) :
    packageReply pkgs app gs evs (.authenticationResponse f now) = success := by
  cases h with
  | mk h1 h2 h3 h4 h5 h6 h7 h8 h9 h10 h11 h12 h13 h14 h15 h16 h17 h18 =>
    exact C97_login asc con codec hgs (serving _) h1 h2 h3 (fun _ => h4) h5 h6 h7 h8 h9 h10 h11 h12 h13 h14 h15 h16 h17 h18
      hcount hinitial

theorem C98_counterless (asc : Ascending rule) (hzero : rule 0 0) (con : ∀ log, ContractBy rule app.env (pkgs log))
    (codec : CodecLaws app.env) (hgs : ∀ g ∈ gs, g ∈ appGuards app) {algs : List Alg}
    (serving : ∀ log, ServingBy rule app.env algs (pkgs log)) :
    ServesCounterless (packageReply pkgs app gs) (fun evs => (packageRun pkgs app gs evs).2.users) app := by
  intro evs f now c ad h h0 hn
  refine C98_login asc con codec hgs serving h ?_ ?_
  · intro pre e m h1 h2
    rw [hn pre e m h1 (Or.inl h2), h0]
    exact hzero
  · intro pre e m h1 h2 h3
    exact absurd (hn pre e m h1 (Or.inr h2)) h3

/-- C98: the guarantees hold with the rule of WebAuthn, with it in place of the one of the code, if
challenges are used once. -/
theorem C98_guarantees (hone : unused app ∈ gs) (con : ∀ log, ContractBy AboveOrZero app.env (pkgs log))
    (codec : CodecLaws app.env) (json : JsonLaw app.env) (law : JsonRefusesMark app.env) :
    UpheldBy AboveOrZero (packageReply pkgs app gs) app :=
  upheld_by aboveOrZero_ascending (Or.inr hone) con codec json law

/-- C98: and with the checks of the application everything that is false of it today. -/
theorem C98_strong (con : ∀ log, StrictContractBy AboveOrZero app.env [.ES256] (pkgs log)) (codec : CodecLaws app.env)
    (json : JsonLaw app.env) (law : JsonRefusesMark app.env) (hgs : ∀ g ∈ appGuards app, g ∈ gs) :
    UpheldStrictlyBy AboveOrZero (packageReply pkgs app gs) app :=
  upheldStrictly_by aboveOrZero_ascending con codec json law hgs

/-- C98: without the check of challenges the counters still do not fall, and stay only at zero. -/
theorem C98_counters (con : ∀ log, ContractBy AboveOrZero app.env (pkgs log)) {evs pre : List Event} {e e' : Event}
    {id : Bytes} {m m' : Nat} (ho : Occurs evs pre e)
    (h : AuthenticatesBy (packageReply pkgs app gs) app pre e id m)
    (h' : AuthenticatesBy (packageReply pkgs app gs) app evs e' id m') : m < m' ∨ m = 0 ∧ m' = 0 := by
  rcases package_increasing aboveOrZero_ascending con ho h h' with h | ⟨h1, h2⟩
  · exact Or.inl (Int.ofNat_lt.mp h)
  · exact Or.inr ⟨by omega, h2⟩

end

end WebAuthn.Flask
