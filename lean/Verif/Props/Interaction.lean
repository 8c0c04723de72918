import Verif.Model.Interaction
import Verif.Spec.Counter
import Verif.Props.Failure

/-!
# Histories, crashes and interleavings (C47, C48, C53)
-/

namespace WebAuthn.Props

open WebAuthn WebAuthn.Spec

section
variable {σ : Type} {env : Env} {reg : Registrar σ} {count : σ → Bytes → WithBot Int}

theorem hasCounter_unique {c : Credential} {m n : Nat} (h1 : HasCounter c m)
    (h2 : HasCounter c n) : m = n := by
  obtain ⟨_, _, _, _, h1, h3⟩ := h1
  obtain ⟨_, _, _, _, h2, h4⟩ := h2
  rw [h1] at h2
  cases h2
  rw [bigEndian_iff] at h3 h4
  rw [h3, h4]

/-- An accepted assertion was written with the counter of the response. -/
theorem assertionOk_counter {a : AssertionArgs} {cd : CredentialData} {user : UserEntity}
    {rp : RpEntity} {ad : AuthData} (h : AssertionOk env a cd user rp ad) :
    HasCounter a.credential ad.signCount := by
  obtain ⟨cdj, raw, sig, handle, h1, -, -, -, h2, -⟩ := h
  exact ⟨cdj, raw, sig, handle, h1, (authDataOf_head h2.1).2.2.2⟩

theorem counterOk_lt {a : AssertionArgs} {cd : CredentialData} {user : UserEntity}
    {rp : RpEntity} {ad : AuthData} (h : AssertionOk env a cd user rp ad)
    (hs : a.ignoreCloneError = false) :
    counterOf cd.signatureCount < ((ad.signCount : Int) : WithBot Int) := by
  have hc := assertionOk_counter h
  obtain ⟨cdj, raw, sig, handle, h1, -, -, -, h2, -, h3⟩ := h
  cases hn : cd.signatureCount with
  | none => exact WithBot.bot_lt_coe _
  | some n =>
    obtain ⟨c, h4, h5⟩ := h3 n hn hs
    have : c = ad.signCount := hasCounter_unique ⟨cdj, raw, sig, handle, h1, h4⟩ hc
    subst this
    exact WithBot.coe_lt_coe.mpr h5

/-! ## C47 -/

theorem handle_mono (laws : StoresCounters reg count) {r : Request} (hr : r.Strict) (s : σ)
    (i : Bytes) : count s i ≤ count (r.handle env reg s).2 i := by
  cases r with
  | registration a =>
    show _ ≤ count (handleAttestation env reg a s).2 i
    cases h : attestationChecks env a with
    | error e => simp only [handleAttestation, h]; exact le_refl _
    | ok r => simp only [handleAttestation, h]; exact laws.attestation r s i
  | authentication a =>
    show _ ≤ count (handleAssertion env reg a s).2 i
    rcases handleAssertion_cases env reg a s with ⟨e, -, h⟩ | ⟨al, rd, s1, h1, h2, h3⟩
    · rw [h]
    · have hrd : count s i ≤ count s1 i := by
        have := laws.read a.credential.rawId s i
        rwa [h2] at this
      rcases h3 with ⟨e, -, h3⟩ | ⟨cd, rfl, ⟨e, -, h3⟩ | ⟨r, w, s2, h4, h5, h6⟩⟩
      · rw [h3]; exact hrd
      · rw [h3]; exact hrd
      · rw [h6]
        obtain ⟨h7, -⟩ := assertionPre_ok_iff.mp h1
        obtain ⟨h8, h9⟩ := (assertionChecks_ok_iff h7).mp h4
        have hlt := counterOk_lt h9 hr
        rw [laws.read_ok _ _ _ _ h2, ← h8] at hlt
        have := laws.assertion r s1 hlt i
        rw [h5] at this
        exact hrd.trans this

theorem serve_mono (laws : StoresCounters reg count) {rs : List Request}
    (hrs : ∀ r ∈ rs, r.Strict) (s : σ) (i : Bytes) : count s i ≤ count (serve env reg rs s) i := by
  induction rs generalizing s with
  | nil => exact le_refl _
  | cons r rs ih =>
    exact (handle_mono laws (hrs r (by simp)) s i).trans
      (ih (fun q hq => hrs q (by simp [hq])) _)

/-- C47: with a registrar that stores counters, the counters of two successful
authentications with one credential increase, whatever requests come between. -/
theorem C47_counters_increase (laws : StoresCounters reg count) {a b : AssertionArgs} {s s1 s2 : σ}
    {between : List Request} (hbetween : ∀ r ∈ between, r.Strict)
    (ha : handleAssertion env reg a s = (.ok (), s1))
    (hb : handleAssertion env reg b (serve env reg between s1) = (.ok (), s2))
    (hstrict : b.ignoreCloneError = false) (hid : a.credential.rawId = b.credential.rawId) :
    ∃ m n, HasCounter a.credential m ∧ HasCounter b.credential n ∧ m < n := by
  obtain ⟨-, -, cd, t, u, rp, ad, -, h1, h2⟩ := assertion_accepts.mp ha
  obtain ⟨-, -, cd', t', u', rp', ad', h3, h4, -⟩ := assertion_accepts.mp hb
  refine ⟨_, _, assertionOk_counter h1, assertionOk_counter h4, ?_⟩
  have hle := laws.assertion_ok _ _ _ h2
  have hmono := serve_mono (env := env) laws hbetween s1 a.credential.rawId
  have hread := laws.read b.credential.rawId (serve env reg between s1) b.credential.rawId
  rw [h3] at hread
  have hlt := counterOk_lt h4 hstrict
  rw [laws.read_ok _ _ _ _ h3] at hlt
  have : ((ad.signCount : Int) : WithBot Int) < ((ad'.signCount : Int) : WithBot Int) :=
    ((hle.trans hmono).trans (hid ▸ hread)).trans_lt hlt
  have := WithBot.coe_lt_coe.mp this
  omega

/-- C47: an accepted response is never accepted again. -/
theorem C47_no_replay (laws : StoresCounters reg count) {a b : AssertionArgs} {s s1 : σ}
    {between : List Request} (hbetween : ∀ r ∈ between, r.Strict)
    (ha : handleAssertion env reg a s = (.ok (), s1))
    (hstrict : b.ignoreCloneError = false) (hid : b.credential.rawId = a.credential.rawId)
    (hresp : b.credential.response = a.credential.response) :
    (handleAssertion env reg b (serve env reg between s1)).1 ≠ .ok () := by
  intro hb
  obtain ⟨m, n, ⟨c1, r1, g1, u1, h1, h2⟩, h3, h4⟩ := C47_counters_increase laws hbetween ha
    (Prod.ext hb rfl : _ = (_, _)) hstrict hid.symm
  have := hasCounter_unique (c := b.credential) ⟨c1, r1, g1, u1, hresp.trans h1, h2⟩ h3
  omega

/-! ## C53 -/

/-- C53: a registration that is not interrupted is the handler call, and makes at
most one registrar call. -/
theorem C53_registration_uninterrupted (a : AttestationArgs) (s : σ) :
    (attestationProg env a).steps reg 1 s =
      (.done (handleAttestation env reg a s).1, (handleAttestation env reg a s).2) := by
  unfold attestationProg handleAttestation
  cases attestationChecks env a <;> rfl

/-- C53: an authentication that is not interrupted is the handler call, and makes at
most two registrar calls. -/
theorem C53_authentication_uninterrupted (a : AssertionArgs) (s : σ) :
    (assertionProg env a).steps reg 2 s =
      (.done (handleAssertion env reg a s).1, (handleAssertion env reg a s).2) := by
  unfold assertionProg handleAssertion
  cases assertionPre env a with
  | error e => rfl
  | ok al =>
    simp only [Prog.steps, Prog.step, assertionProgFrom]
    cases checkRead (reg.getCredentialData a.credential.rawId s).1 with
    | error e => rfl
    | ok cd =>
      simp only
      cases assertionChecks env a al cd <;> rfl

/-- C53, registration: after any number of registrar calls there was no call, or
the one complete write of a verified ceremony. -/
theorem C53_registration_crash (a : AttestationArgs) (s : σ) (n : Nat) :
    ((attestationProg env a).steps (recording reg) n (s, [])).2 = (s, []) ∨
    ∃ o raw, ExpectedOk env a.expectedOrigin ∧ AttestationOk env a o raw ∧ o.attStmt = .none ∧
      ((attestationProg env a).steps (recording reg) n (s, [])).2 =
        ((reg.registerAttestation ⟨a.credential, o, .NONE, a.user, a.rp, none⟩ s).2,
          [.attestation ⟨a.credential, o, .NONE, a.user, a.rp, none⟩]) := by
  have hdone : ∀ n r (x : σ × List Call), ((Prog.done r).steps (recording reg) n x).2 = x := by
    intro n r x
    induction n with
    | zero => rfl
    | succ n ih => exact ih
  cases n with
  | zero => exact Or.inl rfl
  | succ n =>
    cases h : attestationChecks env a with
    | error e =>
      simp only [attestationProg, h]
      exact Or.inl (hdone _ _ _)
    | ok r =>
      obtain ⟨h1, ⟨raw, h2⟩, h3, e1, e2, e3, e4, e5⟩ := attestationChecks_ok_iff.mp h
      refine Or.inr ⟨r.att, raw, h1, h2, h3, ?_⟩
      rw [← e1, ← e2, ← e3, ← e4, ← e5]
      simp only [attestationProg, h, Prog.steps, Prog.step, hdone]
      rfl

/-- C53, authentication. -/
theorem C53_authentication_crash (a : AssertionArgs) (s : σ) (n : Nat) :
    ((assertionProg env a).steps (recording reg) n (s, [])).2 = (s, []) ∨
    ((assertionProg env a).steps (recording reg) n (s, [])).2 =
      ((reg.getCredentialData a.credential.rawId s).2, [.read a.credential.rawId]) ∨
    ∃ cd s1 user rp ad, ExpectedOk env a.expectedOrigin ∧
      AllowOk a.allowCredentials a.credential.rawId ∧
      reg.getCredentialData a.credential.rawId s = (.ok (some cd), s1) ∧
      AssertionOk env a cd user rp ad ∧
      ((assertionProg env a).steps (recording reg) n (s, [])).2 =
        ((reg.registerAssertion ⟨a.credential, ad, user, rp⟩ s1).2,
          [.read a.credential.rawId, .assertion ⟨a.credential, ad, user, rp⟩]) := by
  have hdone : ∀ n r (x : σ × List Call), ((Prog.done r).steps (recording reg) n x).2 = x := by
    intro n r x
    induction n with
    | zero => rfl
    | succ n ih => exact ih
  cases n with
  | zero => exact Or.inl rfl
  | succ n =>
    cases h : assertionPre env a with
    | error e =>
      simp only [assertionProg, h]
      exact Or.inl (hdone _ _ _)
    | ok al =>
      refine Or.inr ?_
      rcases hg : reg.getCredentialData a.credential.rawId s with ⟨rd, s1⟩
      have hstep : (assertionProg env a).steps (recording reg) (n + 1) (s, []) =
          (assertionProgFrom env a al rd).steps (recording reg) n
            (s1, [.read a.credential.rawId]) := by
        simp only [assertionProg, h, Prog.steps, Prog.step, recording, hg, List.nil_append]
      rw [hstep]
      cases n with
      | zero => exact Or.inl rfl
      | succ n =>
        cases hc : checkRead rd with
        | error e =>
          simp only [assertionProgFrom, hc]
          exact Or.inl (hdone _ _ _)
        | ok cd =>
          cases hk : assertionChecks env a al cd with
          | error e =>
            simp only [assertionProgFrom, hc, hk]
            exact Or.inl (hdone _ _ _)
          | ok r =>
            obtain ⟨h1, h2⟩ := assertionPre_ok_iff.mp h
            obtain ⟨h3, h4⟩ := (assertionChecks_ok_iff h1).mp hk
            have hr : (⟨a.credential, r.authData, r.user, r.rp⟩ : AssertionRecord) = r := by
              rw [← h3]
            refine Or.inr ⟨cd, s1, r.user, r.rp, r.authData, expectedOk_iff.mpr ⟨al, h1⟩, h2,
              Prod.ext (checkRead_ok_iff.mp hc) rfl, h4, ?_⟩
            rw [hr]
            simp only [assertionProgFrom, hc, hk, Prog.steps, Prog.step, hdone]
            rfl

/-! ## C48 -/

/-- The program of a request. -/
def prog (env : Env) : Request → Prog
  | .registration a => attestationProg env a
  | .authentication a => assertionProg env a

/-- How far an authentication may have come. -/
inductive Stage (env : Env) (a : AssertionArgs) : Prog → Prop
  | start : Stage env a (assertionProg env a)
  | write (r : AssertionRecord) (cd : CredentialData) : r.credential = a.credential →
      AssertionOk env a cd r.user r.rp r.authData →
      Stage env a (.writeAssertion r fun w => .done (finalise (checkWrite w)))
  | done (r : Py Unit) : Stage env a (.done r)

theorem finalise_error_ne {e : Exc} : (finalise (.error e) : Py Unit) ≠ .ok () := by
  intro h
  rw [finalise_ok_iff] at h
  cases h

theorem step_mono (laws : ComparesCounters reg count) (p : Prog) (s : σ) (i : Bytes) :
    count s i ≤ count (p.step reg s).2 i := by
  cases p with
  | done r => exact le_refl _
  | read id k => exact laws.read id s i
  | writeAttestation r k => exact laws.attestation r s i
  | writeAssertion r k => exact laws.assertion r s i

/-- One step of an authentication: it stays in a stage, and if it is accepted now
then its counter exceeded the stored one before and does not after. -/
theorem stage_step (laws : ComparesCounters reg count) {a : AssertionArgs} {p : Prog}
    (h : Stage env a p) (s : σ) :
    Stage env a (p.step reg s).1 ∧
    (p ≠ .done (.ok ()) → (p.step reg s).1 = .done (.ok ()) →
      ∃ n : Nat, HasCounter a.credential n ∧
        count s a.credential.rawId < ((n : Int) : WithBot Int) ∧
        ((n : Int) : WithBot Int) ≤ count (p.step reg s).2 a.credential.rawId) := by
  cases h with
  | done r => exact ⟨.done r, fun h1 h2 => absurd h2 h1⟩
  | write r cd h1 h2 =>
    refine ⟨.done _, fun _ h3 => ?_⟩
    have h3 : finalise (checkWrite (reg.registerAssertion r s).1) = .ok () := by
      simpa [Prog.step] using h3
    rw [finalise_ok_iff, checkWrite_ok_iff] at h3
    obtain ⟨h4, h5⟩ := laws.assertion_ok r s _ (Prod.ext h3 rfl)
    rw [h1] at h4 h5
    exact ⟨_, assertionOk_counter h2, h4, h5⟩
  | start =>
    cases h : assertionPre env a with
    | error e =>
      simp only [assertionProg, h, Prog.step]
      refine ⟨.done _, fun _ h2 => ?_⟩
      simp only [Prog.done.injEq] at h2
      exact absurd h2 finalise_error_ne
    | ok al =>
      simp only [assertionProg, h, Prog.step]
      cases hc : checkRead (reg.getCredentialData a.credential.rawId s).1 with
      | error e =>
        simp only [assertionProgFrom, hc]
        refine ⟨.done _, fun _ h2 => ?_⟩
        simp only [Prog.done.injEq] at h2
        exact absurd h2 finalise_error_ne
      | ok cd =>
        cases hk : assertionChecks env a al cd with
        | error e =>
          simp only [assertionProgFrom, hc, hk]
          refine ⟨.done _, fun _ h2 => ?_⟩
          simp only [Prog.done.injEq] at h2
          exact absurd h2 finalise_error_ne
        | ok r =>
          simp only [assertionProgFrom, hc, hk]
          obtain ⟨h1, -⟩ := assertionPre_ok_iff.mp h
          obtain ⟨h3, h4⟩ := (assertionChecks_ok_iff h1).mp hk
          exact ⟨.write r cd h3 h4, fun _ h2 => by cases h2⟩

variable {ι : Type} [DecidableEq ι]

/-- The threads have handled their requests in some order of registrar calls. -/
structure Inv (env : Env) (count : σ → Bytes → WithBot Int) (req : ι → Request)
    (x : System ι σ) : Prop where
  stage : ∀ i a, req i = .authentication a → Stage env a (x.threads i)
  done : ∀ i a, req i = .authentication a → x.threads i = .done (.ok ()) →
    ∃ n : Nat, HasCounter a.credential n ∧
      ((n : Int) : WithBot Int) ≤ count x.state a.credential.rawId
  once : ∀ i j a b, i ≠ j → req i = .authentication a → req j = .authentication b →
    x.threads i = .done (.ok ()) → x.threads j = .done (.ok ()) →
    a.credential.rawId = b.credential.rawId →
    ∀ n, HasCounter a.credential n → ¬ HasCounter b.credential n

theorem inv_step (laws : ComparesCounters reg count) {req : ι → Request} {x : System ι σ}
    (h : Inv env count req x) (k : ι) : Inv env count req (x.step reg k) := by
  have hmono := step_mono laws (x.threads k) x.state
  -- an accepted thread was accepted before, or has just been
  have hcases : ∀ i a, req i = .authentication a → (x.step reg k).threads i = .done (.ok ()) →
      x.threads i = .done (.ok ()) ∨ (i = k ∧ ∃ n : Nat, HasCounter a.credential n ∧
        count x.state a.credential.rawId < ((n : Int) : WithBot Int) ∧
        ((n : Int) : WithBot Int) ≤ count (x.step reg k).state a.credential.rawId) := by
    intro i a hi hd
    by_cases hik : i = k
    · subst hik
      by_cases hp : x.threads i = .done (.ok ())
      · exact Or.inl hp
      · refine Or.inr ⟨rfl, (stage_step laws (h.stage i a hi) x.state).2 hp ?_⟩
        simpa [System.step] using hd
    · exact Or.inl (by simpa [System.step, hik] using hd)
  refine ⟨?_, ?_, ?_⟩
  · intro i a hi
    by_cases hik : i = k
    · subst hik
      simpa [System.step] using (stage_step laws (h.stage i a hi) x.state).1
    · simpa [System.step, hik] using h.stage i a hi
  · intro i a hi hd
    rcases hcases i a hi hd with h1 | ⟨-, n, h1, -, h2⟩
    · obtain ⟨n, h2, h3⟩ := h.done i a hi h1
      exact ⟨n, h2, h3.trans (hmono _)⟩
    · exact ⟨n, h1, h2⟩
  · intro i j a b hij hi hj hdi hdj hid n hna hnb
    rcases hcases i a hi hdi with h1 | ⟨rfl, m, h1, h2, -⟩
    · rcases hcases j b hj hdj with h3 | ⟨rfl, m, h3, h4, -⟩
      · exact h.once i j a b hij hi hj h1 h3 hid n hna hnb
      · obtain ⟨q, h5, h6⟩ := h.done i a hi h1
        rw [hasCounter_unique h5 hna] at h6
        rw [hasCounter_unique h3 hnb, ← hid] at h4
        exact absurd (h6.trans_lt h4) (lt_irrefl _)
    · rcases hcases j b hj hdj with h3 | ⟨rfl, -⟩
      · obtain ⟨q, h5, h6⟩ := h.done j b hj h3
        rw [hasCounter_unique h5 hnb] at h6
        rw [hasCounter_unique h1 hna, hid] at h2
        exact absurd (h6.trans_lt h2) (lt_irrefl _)
      · exact hij rfl

theorem inv_exec (laws : ComparesCounters reg count) {req : ι → Request} (sched : List ι)
    {x : System ι σ} (h : Inv env count req x) : Inv env count req (x.exec reg sched) := by
  induction sched generalizing x with
  | nil => exact h
  | cons k ks ih => exact ih (inv_step laws h k)

theorem prog_not_done (r : Request) : prog env r ≠ .done (.ok ()) := by
  cases r with
  | registration a =>
    cases h : attestationChecks env a with
    | error e => simpa [prog, attestationProg, h] using finalise_error_ne
    | ok r => simp [prog, attestationProg, h]
  | authentication a =>
    cases h : assertionPre env a with
    | error e => simpa [prog, assertionProg, h] using finalise_error_ne
    | ok r => simp [prog, assertionProg, h]

omit [DecidableEq ι] in
theorem inv_init (req : ι → Request) (s : σ) :
    Inv env count req ⟨fun i => prog env (req i), s⟩ where
  stage := fun i a hi => by simp only [hi, prog]; exact .start
  done := fun i _ _ hd => absurd hd (prog_not_done _)
  once := fun i _ _ _ _ _ _ hd => absurd hd (prog_not_done _)

/-- C48, full statement: for registrars that store counters, in no interleaving
do two handlers accept the same response. -/
def ReplaySafe : Prop :=
  ∀ (env : Env) (σ : Type) (reg : Registrar σ) (count : σ → Bytes → WithBot Int),
    StoresCounters reg count → ∀ (a b : AssertionArgs) (s : σ) (sched : List Bool),
    a.ignoreCloneError = false → b.ignoreCloneError = false →
    a.credential.rawId = b.credential.rawId → a.credential.response = b.credential.response →
    ¬ ∀ i, ((⟨fun i => assertionProg env (if i then a else b), s⟩ : System Bool σ).exec reg
      sched).threads i = .done (.ok ())

/-- C48 holds for registrars that compare the counter and store it in one atomic
step: whatever requests run concurrently, of two handlers given the same response
at most one accepts.  Missing: registrars that only store it, as documented
(`C48_replay_refuted`). -/
theorem C48_compare_and_set_partial (laws : ComparesCounters reg count) (req : ι → Request) (s : σ)
    (sched : List ι) {i j : ι} (hij : i ≠ j) {a b : AssertionArgs}
    (hi : req i = .authentication a) (hj : req j = .authentication b)
    (hid : a.credential.rawId = b.credential.rawId)
    (hresp : a.credential.response = b.credential.response)
    (hacc : ((⟨fun i => prog env (req i), s⟩ : System ι σ).exec reg sched).threads i =
      .done (.ok ())) :
    ((⟨fun i => prog env (req i), s⟩ : System ι σ).exec reg sched).threads j ≠ .done (.ok ()) := by
  intro hj'
  have inv := inv_exec (env := env) laws sched (inv_init (count := count) req s)
  obtain ⟨n, ⟨c, r, g, u, h1, h2⟩, -⟩ := inv.done i a hi hacc
  exact inv.once i j a b hij hi hj hacc hj' hid n ⟨c, r, g, u, h1, h2⟩
    ⟨c, r, g, u, hresp.symm.trans h1, h2⟩

/-- C48, the same for different responses: two acceptances of one credential have
different counters. -/
theorem C48_distinct_counters_partial (laws : ComparesCounters reg count) (req : ι → Request)
    (s : σ) (sched : List ι) {i j : ι} (hij : i ≠ j) {a b : AssertionArgs}
    (hi : req i = .authentication a) (hj : req j = .authentication b)
    (hid : a.credential.rawId = b.credential.rawId)
    (hi' : ((⟨fun i => prog env (req i), s⟩ : System ι σ).exec reg sched).threads i =
      .done (.ok ()))
    (hj' : ((⟨fun i => prog env (req i), s⟩ : System ι σ).exec reg sched).threads j =
      .done (.ok ())) :
    ∃ m n, HasCounter a.credential m ∧ HasCounter b.credential n ∧ m ≠ n := by
  have inv := inv_exec (env := env) laws sched (inv_init (count := count) req s)
  obtain ⟨m, h1, -⟩ := inv.done i a hi hi'
  obtain ⟨n, h2, -⟩ := inv.done j b hj hj'
  refine ⟨m, n, h1, h2, ?_⟩
  rintro rfl
  exact inv.once i j a b hij hi hj hi' hj' hid m h1 h2

end

/-! ### The demo registrar -/

/-- The stored counter. -/
def demoCount (s : Demo.Store) (id : Bytes) : WithBot Int :=
  match Demo.lookup s id with
  | none => ⊥
  | some cd => counterOf cd.signatureCount

theorem demoCount_cons (i id : Bytes) (cd : CredentialData) (s : Demo.Store) :
    demoCount ((i, cd) :: s) id =
      if i = id then counterOf cd.signatureCount else demoCount s id := by
  have : Demo.lookup ((i, cd) :: s) id = if i = id then some cd else Demo.lookup s id := rfl
  simp only [demoCount, this]
  by_cases h : i = id
  · simp only [if_pos h]
  · simp only [if_neg h]

/-- It stores counters. -/
theorem demo_stores : StoresCounters Demo.registrar demoCount where
  read := fun _ _ _ => le_refl _
  read_ok := fun id s s' cd h => by
    simp only [Demo.registrar, Prod.mk.injEq, Except.ok.injEq] at h
    obtain ⟨h, rfl⟩ := h
    simp only [demoCount, h]
  attestation := fun r s i => by
    simp only [Demo.registrar]
    split
    · exact le_refl _
    · split
      · exact le_refl _
      · rename_i h
        rw [demoCount_cons]
        split_ifs with hi
        · subst hi
          simp only [demoCount, h]
          exact bot_le
        · exact le_refl _
  assertion := fun r s hlt i => by
    simp only [Demo.registrar]
    split
    · exact le_refl _
    · rw [demoCount_cons]
      split_ifs with hi
      · subst hi
        exact hlt.le
      · exact le_refl _
  assertion_ok := fun r s s' h => by
    simp only [Demo.registrar] at h
    split at h
    · cases h
    · cases h
      rw [demoCount_cons, if_pos rfl]
      exact le_refl _

/-- So the second presentation of the demo response fails, whatever came between. -/
example (between : List Request) (h : ∀ r ∈ between, r.Strict) :
    (handleAssertion Demo.env Demo.registrar Demo.authArgs
      (serve Demo.env Demo.registrar between
        [(Demo.credId, Demo.stored 2), (Demo.credId, Demo.stored 1)])).1 ≠ .ok () :=
  C47_no_replay demo_stores h (Demo.authentication_ok []) rfl rfl rfl

theorem demo_pre : ∃ al, assertionPre Demo.env Demo.authArgs = .ok al := by
  obtain ⟨al, -, -, -, h, -⟩ := handleAssertion_ok_iff.mp (Demo.authentication_ok [])
  exact ⟨al, h⟩

theorem demo_write (al : List Origin) (h : assertionPre Demo.env Demo.authArgs = .ok al) :
    ∃ r, r.credential = Demo.authCredential ∧
      assertionProgFrom Demo.env Demo.authArgs al (.ok (some (Demo.stored 1))) =
        .writeAssertion r fun w => .done (finalise (checkWrite w)) := by
  obtain ⟨al', cd, s1, r, h1, h2, h3, -⟩ := handleAssertion_ok_iff.mp (Demo.authentication_ok [])
  rw [h] at h1
  cases h1
  have h2 : (Except.ok (Demo.lookup [(Demo.credId, Demo.stored 1)] Demo.credId), _) = _ := h2
  rw [Demo.lookup_head] at h2
  cases h2
  refine ⟨r, ((assertionChecks_ok_iff (assertionPre_ok_iff.mp h).1).mp h3).1, ?_⟩
  simp only [assertionProgFrom, checkRead, h3]

/-- C48 is false: with the demo registrar, which does store counters, both
handlers read before either writes, and both accept the same response. -/
theorem C48_replay_refuted : ¬ ReplaySafe := by
  intro h
  refine h Demo.env Demo.Store Demo.registrar demoCount demo_stores Demo.authArgs Demo.authArgs
    [(Demo.credId, Demo.stored 1)] [true, false, true, false] rfl rfl rfl rfl ?_
  obtain ⟨al, hal⟩ := demo_pre
  obtain ⟨r, hr, hw⟩ := demo_write al hal
  have hread : ∀ s : Demo.Store,
      Demo.registrar.getCredentialData Demo.authArgs.credential.rawId s =
        (.ok (Demo.lookup s Demo.credId), s) := fun _ => rfl
  have hwrite : ∀ cd s, ∃ cd', Demo.registrar.registerAssertion r ((Demo.credId, cd) :: s) =
      (.ok none, (Demo.credId, cd') :: (Demo.credId, cd) :: s) := by
    intro cd s
    refine ⟨{ cd with signatureCount := some r.authData.signCount }, ?_⟩
    simp only [Demo.registrar, hr]
    rw [show Demo.authCredential.rawId = Demo.credId from rfl, Demo.lookup_head]
  obtain ⟨cd1, hw1⟩ := hwrite (Demo.stored 1) []
  obtain ⟨cd2, hw2⟩ := hwrite cd1 [(Demo.credId, Demo.stored 1)]
  have hf : (finalise (checkWrite (.ok none)) : Py Unit) = .ok () := rfl
  intro i
  cases i <;>
    simp [System.exec, System.step, assertionProg, hal, Prog.step, hread, Demo.lookup_head, hw,
      hw1, hw2, hf]

/-- The demo registrar with an atomic comparison. -/
def comparingCounters : Registrar Demo.Store :=
  { Demo.registrar with
    registerAssertion := fun r s =>
      open Classical in
      if demoCount s r.credential.rawId < ((r.authData.signCount : Int) : WithBot Int) then
        Demo.registrar.registerAssertion r s
      else (.ok (some "counter"), s) }

/-- It meets the hypothesis of `C48_compare_and_set_partial`. -/
theorem demo_compares : ComparesCounters comparingCounters demoCount where
  read := fun _ _ _ => le_refl _
  attestation := demo_stores.attestation
  assertion := fun r s i => by
    simp only [comparingCounters]
    split_ifs with h
    · exact demo_stores.assertion r s h i
    · exact le_refl _
  assertion_ok := fun r s s' h => by
    simp only [comparingCounters] at h
    split_ifs at h with hc
    · exact ⟨hc, demo_stores.assertion_ok r s s' h⟩
    · cases h

/-- With it, in the order of calls of `C48_replay_refuted`, the first handler
accepts and the second one does not. -/
example : ((⟨fun _ => prog Demo.env (.authentication Demo.authArgs),
      [(Demo.credId, Demo.stored 1)]⟩ : System Bool Demo.Store).exec comparingCounters
        [true, false, true, false]).threads true = .done (.ok ()) ∧
    ((⟨fun _ => prog Demo.env (.authentication Demo.authArgs),
      [(Demo.credId, Demo.stored 1)]⟩ : System Bool Demo.Store).exec comparingCounters
        [true, false, true, false]).threads false ≠ .done (.ok ()) := by
  have h1 : ((⟨fun _ => prog Demo.env (.authentication Demo.authArgs),
      [(Demo.credId, Demo.stored 1)]⟩ : System Bool Demo.Store).exec comparingCounters
        [true, false, true, false]).threads true = .done (.ok ()) := by
    obtain ⟨al, hal⟩ := demo_pre
    obtain ⟨r, hr, hw⟩ := demo_write al hal
    have hread : ∀ s : Demo.Store,
        comparingCounters.getCredentialData Demo.authArgs.credential.rawId s =
          (.ok (Demo.lookup s Demo.credId), s) := fun _ => rfl
    have hwrite : (comparingCounters.registerAssertion r [(Demo.credId, Demo.stored 1)]).1 =
        .ok none := by
      have hcount : demoCount [(Demo.credId, Demo.stored 1)] r.credential.rawId <
          ((r.authData.signCount : Int) : WithBot Int) := by
        obtain ⟨al', cd, s1, r', h1, h2, h3, h4⟩ :=
          handleAssertion_ok_iff.mp (Demo.authentication_ok [])
        rw [hal] at h1
        cases h1
        have h2 : (Except.ok (Demo.lookup [(Demo.credId, Demo.stored 1)] Demo.credId), _) = _ := h2
        rw [Demo.lookup_head] at h2
        cases h2
        simp only [assertionProgFrom, checkRead, h3, Prog.writeAssertion.injEq] at hw
        obtain ⟨rfl, -⟩ := hw
        have h5 := ((assertionChecks_ok_iff (assertionPre_ok_iff.mp hal).1).mp h3).2
        have := counterOk_lt h5 rfl
        rw [hr, demoCount_cons, if_pos (show Demo.credId = Demo.authCredential.rawId from rfl)]
        exact this
      simp only [comparingCounters, if_pos hcount]
      simp only [Demo.registrar, hr]
      rw [show Demo.authCredential.rawId = Demo.credId from rfl, Demo.lookup_head]
    have hf : (finalise (checkWrite (.ok none)) : Py Unit) = .ok () := rfl
    simp [System.exec, System.step, prog, assertionProg, hal, Prog.step, hread, Demo.lookup_head,
      hw, hwrite, hf]
  exact ⟨h1, C48_compare_and_set_partial demo_compares (fun _ => .authentication Demo.authArgs) _ _
    (by decide) rfl rfl rfl rfl h1⟩

end WebAuthn.Props
