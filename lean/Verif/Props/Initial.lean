import Verif.Model.Initial
import Verif.Spec.Initial
import Verif.Props.Choosy

/-!
# The counter of a registration (C82)
-/

namespace WebAuthn.Props

open Spec

section
variable {σ : Type} {env : Env} {reg : Registrar σ} {count : σ → Bytes → WithBot Int}

theorem attestationOk_counter {a : AttestationArgs} {o : AttestationObject} {raw : Bytes}
    (h : AttestationOk env a o raw) : HasInitialCounter env a.credential o.authData.signCount := by
  obtain ⟨cdj, ob, h1, -, h2, -⟩ := h
  obtain ⟨d, r, t, g1, g2, g3, -⟩ := id h2
  exact ⟨cdj, ob, o, raw, h1, h2, (authDataOf_head g3).2.2.2⟩

theorem hasInitialCounter_unique {c : Credential} {m n : Nat} (h1 : HasInitialCounter env c m)
    (h2 : HasInitialCounter env c n) : m = n := by
  obtain ⟨cdj, ob, o, raw, h1, h3, h4⟩ := h1
  obtain ⟨cdj', ob', o', raw', h1', h3', h4'⟩ := h2
  rw [h1] at h1'
  cases h1'
  rw [← parseAttestationObject_ok_iff] at h3 h3'
  rw [h3] at h3'
  cases h3'
  rw [bigEndian_iff] at h4 h4'
  rw [h4, h4']

/-- C82: with a registrar that stores the counters of registrations too, a login has a greater
counter than the registration of its credential, whatever requests come between. -/
theorem C82_login_above (laws : StoresInitial reg count) {a : AttestationArgs} {b : AssertionArgs}
    {s s1 s2 : σ} {between : List Request} (hbetween : ∀ r ∈ between, r.Strict)
    (ha : handleAttestation env reg a s = (.ok (), s1))
    (hb : handleAssertion env reg b (serve env reg between s1) = (.ok (), s2))
    (hstrict : b.ignoreCloneError = false) (hid : a.credential.rawId = b.credential.rawId) :
    ∃ m n, HasInitialCounter env a.credential m ∧ HasCounter b.credential n ∧ (m ≠ 0 → m < n) := by
  obtain ⟨-, o, raw, h1, -, h2⟩ := attestation_accepts.mp ha
  obtain ⟨-, -, cd', t', u', rp', ad', h3, h4, -⟩ := assertion_accepts.mp hb
  refine ⟨_, _, attestationOk_counter h1, assertionOk_counter h4, fun hm => ?_⟩
  have hle := laws.initial _ _ _ h2 hm
  have hmono := serve_mono (env := env) laws.toStoresCounters hbetween s1 a.credential.rawId
  have hread := laws.read b.credential.rawId (serve env reg between s1) b.credential.rawId
  rw [h3] at hread
  have hlt := counterOk_lt h4 hstrict
  rw [laws.read_ok _ _ _ _ h3] at hlt
  have : ((o.authData.signCount : Int) : WithBot Int) < ((ad'.signCount : Int) : WithBot Int) :=
    ((hle.trans hmono).trans (hid ▸ hread)).trans_lt hlt
  have := WithBot.coe_lt_coe.mp this
  omega

end

end WebAuthn.Props

namespace WebAuthn.Flask

open Spec Props

/-- C82, the part that holds of the application: once a login had a greater counter than the
registration, later ones have.  Missing: that the first one has (`C82_refuted`). -/
theorem C82_after_partial {app : App} {evs pre : List Event} {e e' : Event} {id : Bytes} {m k k' : Nat}
    (ho : Occurs evs pre e) (h : AuthenticatesBy (reply app) app pre e id k) (hm : m < k)
    (h' : AuthenticatesBy (reply app) app evs e' id k') : m < k' := by
  obtain ⟨f, t, n, c, name, rfl, hs, hf, hid, hc⟩ := h
  obtain ⟨f', t', n', c', name', rfl, hs', hf', hid', hc'⟩ := h'
  obtain ⟨mid, rfl⟩ := ho
  obtain ⟨a, b, ha, hb, hab⟩ := C47_flask_counters hs hf hs' hf' (hid.trans hid'.symm)
  have := hasCounter_unique hc ha
  have := hasCounter_unique hc' hb
  omega

/-! ## The repaired registrar -/

theorem initialAttestation_cases (env : Env) (r : AttestationRecord) (db : Db) :
    (initialAttestation env r db = registerAttestation env r db ∧
      (registerAttestation env r db).1 ≠ .ok none) ∨
    ∃ db', registerAttestation env r db = (.ok none, db') ∧
      (r.att.authData.signCount = 0 ∧ initialAttestation env r db = (.ok none, db') ∨
      r.att.authData.signCount ≠ 0 ∧ initialAttestation env r db = (.ok none, { db' with
        credentials := db'.credentials.map (setCount r.credential.rawId r.att.authData.signCount) })) := by
  rcases registerAttestation_cases env r db with ⟨x, hx, h⟩ | ⟨acd, u, k, key, -, -, -, -, -, h⟩
  · left
    refine ⟨?_, by rw [h]; exact hx⟩
    unfold initialAttestation
    rw [h]
    split
    · rename_i heq
      exact absurd (Prod.mk.inj heq).1 hx
    · rfl
  · right
    refine ⟨_, h, ?_⟩
    unfold initialAttestation
    rw [h]
    by_cases hz : r.att.authData.signCount = 0
    · exact Or.inl ⟨hz, by simp only [hz, if_true]⟩
    · exact Or.inr ⟨hz, by simp only [hz, if_false]⟩

/-- C82: the repaired registrar meets the hypotheses of `C82_login_above`. -/
theorem C82_repaired_registrar (env : Env) : StoresInitial (initialRegistrar env) counter where
  read := (C47_flask_registrar env).read
  read_ok := (C47_flask_registrar env).read_ok
  assertion := (C47_flask_registrar env).assertion
  assertion_ok := (C47_flask_registrar env).assertion_ok
  attestation := by
    intro r db i
    show _ ≤ counter (initialAttestation env r db).2 i
    have hold : counter db i ≤ counter (registerAttestation env r db).2 i :=
      (C47_flask_registrar env).attestation r db i
    rcases initialAttestation_cases env r db with ⟨h, -⟩ | ⟨db', h, ⟨-, h'⟩ | ⟨hz, h'⟩⟩
    · rw [h]; exact hold
    · rw [h']; rw [h] at hold; exact hold
    · rw [h', counter_setCount]
      rw [h] at hold
      split
      · rename_i hi
        rcases registerAttestation_cases env r db with ⟨x, hx, g⟩ | ⟨acd, u, k, key, -, -, -, -, hn, g⟩
        · rw [g] at h
          exact absurd (Prod.mk.inj h).1 hx
        · have : db.credential i = none := by
            unfold Db.credential
            rw [List.find?_eq_none]
            intro c hc
            have := hn c hc
            simpa [hi.1] using this
          unfold counter
          rw [this]
          exact bot_le
      · exact hold
  initial := by
    intro r db db' h hz
    have h : initialAttestation env r db = _ := h
    rcases initialAttestation_cases env r db with ⟨g, hne⟩ | ⟨db1, g, ⟨h0, -⟩ | ⟨-, g'⟩⟩
    · rw [← g, h] at hne
      exact absurd rfl hne
    · exact absurd h0 hz
    · rw [g'] at h
      obtain ⟨-, rfl⟩ := Prod.mk.inj h
      rw [counter_setCount, if_pos]
      refine ⟨rfl, ?_⟩
      rcases registerAttestation_cases env r db with ⟨x, hx, h2⟩ | ⟨acd, u, k, key, -, -, -, -, hn, h2⟩
      · rw [h2] at g
        exact absurd (Prod.mk.inj g).1 hx
      · rw [h2] at g
        obtain ⟨-, rfl⟩ := Prod.mk.inj g
        unfold Db.credential
        simp

theorem initialRun_snoc (app : App) (evs : List Event) (e : Event) :
    initialRun app (evs ++ [e]) = (initialStep app e (initialRun app evs)).2 := by
  simp [initialRun, List.foldl_append]

theorem counter_initialStep (app : App) (e : Event) (db : Db) (i : Bytes) :
    counter db i ≤ counter (initialStep app e db).2 i := by
  cases e with
  | registrationResponse f t =>
    show _ ≤ counter (initialResponse app f t db).2 i
    cases hr : readResponse app true f t db with
    | error r =>
      simp only [initialResponse, hr]
      exact le_refl _
    | ok x =>
      obtain ⟨c, ch, u⟩ := x
      simp only [initialResponse, hr]
      exact handle_mono (env := app.env) (r := .registration _)
        (C82_repaired_registrar app.env).toStoresCounters trivial db i
  | registrationRequest name hd ch t => exact counter_step app (.registrationRequest name hd ch t) db i
  | authenticationRequest name ch t => exact counter_step app (.authenticationRequest name ch t) db i
  | authenticationResponse f t => exact counter_step app (.authenticationResponse f t) db i

theorem counter_initialRun (app : App) (evs evs' : List Event) (i : Bytes) :
    counter (initialRun app evs) i ≤ counter (initialRun app (evs ++ evs')) i := by
  induction evs' using List.reverseRecOn with
  | nil => simp
  | append_singleton l e ih =>
    rw [← List.append_assoc, initialRun_snoc]
    exact le_trans ih (counter_initialStep app e _ i)

/-- A registration stores its counter. -/
theorem initial_begins {app : App} {pre : List Event} {e : Event} {id : Bytes} {m : Nat}
    (h : BeginsBy (initialReply app) app pre e id m) (hm : m ≠ 0) :
    ((m : Int) : WithBot Int) ≤ counter (initialRun app (pre ++ [e])) id := by
  obtain ⟨f, t, n, c, name, rfl, hs, hf, rfl, hc⟩ := h
  rw [initialRun_snoc]
  have hs : (initialResponse app f t (initialRun app pre)).1 = success := hs
  show _ ≤ counter (initialResponse app f t (initialRun app pre)).2 _
  unfold initialResponse at hs ⊢
  split at hs
  · rename_i r hr
    exact absurd hs (readResponse_ne_success hr)
  · rename_i c' ch u hr
    obtain ⟨n', name', hf', -⟩ := readResponse_ok_iff.mp hr
    obtain ⟨-, rfl, -⟩ := submits_unique hf hf'
    have hh : handleAttestation app.env (initialRegistrar app.env) (attestationArgs c ch u)
        (initialRun app pre) = (.ok (), _) := Prod.ext (conclude_success.mp hs) rfl
    obtain ⟨-, o, raw, h1, -, h2⟩ := attestation_accepts.mp hh
    have e1 : m = o.authData.signCount := hasInitialCounter_unique hc (attestationOk_counter h1)
    rw [e1] at hm ⊢
    exact (C82_repaired_registrar app.env).initial _ _ _ h2 hm

/-- A login has a greater counter than the stored one. -/
theorem login_above {app : App} {f : Form} {t : Int} {db : Db} {n k : Nat} {c : Credential}
    {name : String} (hs : (authenticationResponse app f t db).1 = success)
    (hf : Submits app f n c name) (hc : HasCounter c k) :
    counter db c.rawId < ((k : Int) : WithBot Int) := by
  unfold authenticationResponse at hs
  split at hs
  · rename_i r hr
    exact absurd hs (readResponse_ne_success hr)
  · rename_i c' ch u hr
    obtain ⟨n', name', hf', -⟩ := readResponse_ok_iff.mp hr
    obtain ⟨-, rfl, -⟩ := submits_unique hf hf'
    have hh : handleAssertion app.env (registrar app.env) (assertionArgs c ch u) db = (.ok (), _) :=
      Prod.ext (conclude_success.mp hs) rfl
    obtain ⟨-, -, cd, t', u', rp', ad, h3, h4, -⟩ := assertion_accepts.mp hh
    have hlt := counterOk_lt h4 rfl
    rw [(C47_flask_registrar app.env).read_ok _ _ _ _ h3] at hlt
    rw [hasCounter_unique hc (assertionOk_counter h4)]
    exact ((C47_flask_registrar app.env).read c.rawId db c.rawId |>.trans
      (by rw [show (registrar app.env).getCredentialData c.rawId db = _ from h3]; exact le_refl _)).trans_lt
        hlt

/-- C82 of the repaired application. -/
theorem C82_repaired (app : App) : CounterAbove (initialReply app) app := by
  intro evs pre e e' id m k ho hb hl hm
  obtain ⟨post, rfl⟩ := ho
  obtain ⟨f, t, n, c, name, rfl, hs, hf, rfl, hc⟩ := hl
  have h1 := initial_begins hb hm
  have h2 := counter_initialRun app (pre ++ [e]) post c.rawId
  rw [List.append_assoc, List.singleton_append] at h2
  have := WithBot.coe_lt_coe.mp ((h1.trans h2).trans_lt (login_above hs hf hc))
  omega

end WebAuthn.Flask
