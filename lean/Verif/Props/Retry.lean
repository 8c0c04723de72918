import Verif.Model.Retry
import Verif.Spec.Retry
import Verif.Props.FlaskHonest
import Verif.Lemmas.FlaskThreads

/-!
# Registrations that are sent again (C111)
-/

namespace WebAuthn.Flask

open WebAuthn WebAuthn.Spec WebAuthn.Props

variable {app : App}

theorem alreadyStored_iff {env : Env} {r : AttestationRecord} {db : Db} : alreadyStored env r db = true ↔
    ∃ acd u k key, r.att.authData.attested = some acd ∧ db.userOfHandle r.user.id = some u ∧
      acd.credentialPublicKey = some k ∧ coseKey env k = .ok key ∧ HasRow db r.credential.rawId key u.id := by
  unfold alreadyStored
  cases h1 : r.att.authData.attested with
  | none => simp
  | some acd =>
    cases h2 : db.userOfHandle r.user.id with
    | none => simp
    | some u =>
      cases h3 : acd.credentialPublicKey with
      | none =>
        simp only [h3, Bool.false_eq_true, false_iff]
        rintro ⟨acd', u', k, key, e1, -, e3, -⟩
        cases e1
        rw [h3] at e3
        cases e3
      | some k =>
        cases h4 : coseKey env k with
        | error e =>
          simp only [h3, h4, Bool.false_eq_true, false_iff]
          rintro ⟨acd', u', k', key, e1, -, e3, e4, -⟩
          cases e1
          rw [h3] at e3
          cases e3
          rw [h4] at e4
          cases e4
        | ok key =>
          simp only [h3, h4, List.any_eq_true, Bool.and_eq_true, beq_iff_eq]
          constructor
          · rintro ⟨c, hc, e1, e2, e3⟩
            exact ⟨acd, u, k, key, rfl, rfl, h3, h4, c, hc, e1, e3, e2⟩
          · rintro ⟨acd', u', k', key', e1, e2, e3, e4, c, hc, e5, e6, e7⟩
            cases e1
            cases e2
            rw [h3] at e3
            cases e3
            rw [h4] at e4
            cases e4
            exact ⟨c, hc, e5, e7, e6⟩

theorem register_stored {env : Env} {r : AttestationRecord} {db : Db} (h : alreadyStored env r db = true) :
    registerAttestation env r db = (.error integrityError, db) := by
  obtain ⟨acd, u, k, key, h1, h2, h3, h4, c, hc, h5, -⟩ := alreadyStored_iff.mp h
  have : (db.credentials.any fun c => c.id == r.credential.rawId) = true := by
    rw [List.any_eq_true]
    exact ⟨c, hc, by simp [h5]⟩
  simp only [registerAttestation, h1, h2, h3, h4, this, if_true]

theorem retry_handle (env : Env) (a : AttestationArgs) (db : Db) :
    handleAttestation env (retryRegistrar env) a db = handleAttestation env (registrar env) a db ∨
    ∃ r, attestationChecks env a = .ok r ∧ alreadyStored env r db = true ∧
      handleAttestation env (retryRegistrar env) a db = (.ok (), db) ∧
      (handleAttestation env (registrar env) a db).1 ≠ .ok () ∧
      (handleAttestation env (registrar env) a db).2 = db := by
  cases h : attestationChecks env a with
  | error e =>
    left
    simp only [handleAttestation, h]
  | ok r =>
    cases hs : alreadyStored env r db with
    | false =>
      left
      simp only [handleAttestation, h, retryRegistrar, retryAttestation, hs, registrar, Bool.false_eq_true, if_false]
    | true =>
      right
      refine ⟨r, rfl, hs, ?_, ?_, ?_⟩
      · exact handleAttestation_ok_iff.mpr ⟨r, h, by simp only [retryRegistrar, retryAttestation, hs, if_true]⟩
      · intro hc
        obtain ⟨r', h1, h2⟩ := handleAttestation_ok_iff.mp (Prod.ext hc rfl)
        rw [h] at h1
        cases h1
        have h3 := register_stored hs
        simp only [registrar] at h2
        rw [h3] at h2
        cases h2
      · simp only [handleAttestation, h, registrar, register_stored hs]

theorem retry_response (f : Form) (now : Int) (db : Db) :
    retryResponse app f now db = registrationResponse app f now db ∨
    ∃ c ch u r, readResponse app true f now db = .ok (c, ch, u) ∧
      attestationChecks app.env (attestationArgs c ch u) = .ok r ∧ alreadyStored app.env r db = true ∧
      retryResponse app f now db = (success, db) ∧ (registrationResponse app f now db).1 ≠ success ∧
      (registrationResponse app f now db).2 = db := by
  cases h : readResponse app true f now db with
  | error r =>
    left
    simp only [retryResponse, registrationResponse, h]
  | ok x =>
    obtain ⟨c, ch, u⟩ := x
    rcases retry_handle app.env (attestationArgs c ch u) db with h1 | ⟨r, h1, h2, h3, h4, h5⟩
    · left
      simp only [retryResponse, registrationResponse, h, h1]
    · right
      refine ⟨c, ch, u, r, rfl, h1, h2, ?_, ?_, ?_⟩
      · simp only [retryResponse, h, h3]
        rfl
      · simp only [registrationResponse, h]
        rw [ne_eq, conclude_success]
        exact h4
      · simp only [registrationResponse, h]
        exact h5

theorem retryStep_db (e : Event) (db : Db) : (retryStep app e db).2 = (step app e db).2 := by
  cases e with
  | registrationResponse f t =>
    show (retryResponse app f t db).2 = (registrationResponse app f t db).2
    rcases retry_response (app := app) f t db with h | ⟨_, _, _, _, -, -, -, h, -, h'⟩
    · rw [h]
    · rw [h, h']
  | _ => rfl

/-! ## C111 -/

/-- C111: the tables are those of the application. -/
theorem C111_tables (app : App) (evs : List Event) : retryRun app evs = run app evs := by
  induction evs using List.reverseRecOn with
  | nil => rfl
  | append_singleton l e ih =>
    rw [run_snoc, ← ih, ← retryStep_db]
    simp only [retryRun, List.foldl_append, List.foldl_cons, List.foldl_nil]

/-- C111: all but responses to registrations are answered as by the application. -/
theorem C111_others (evs : List Event) {e : Event} (he : ∀ f t, e ≠ .registrationResponse f t) :
    retryReply app evs e = reply app evs e := by
  rw [retryReply, C111_tables]
  cases e with
  | registrationResponse f t => exact absurd rfl (he f t)
  | _ => rfl

/-- C111: what the application answers with success is answered with success. -/
theorem C111_success {evs : List Event} {e : Event} (h : reply app evs e = success) : retryReply app evs e = success := by
  rw [retryReply, C111_tables]
  cases e with
  | registrationResponse f t =>
    rcases retry_response (app := app) f t (run app evs) with h1 | ⟨_, _, _, _, -, -, -, h1, -⟩
    · exact (congrArg Prod.fst h1).trans h
    · exact congrArg Prod.fst h1
  | _ => exact h

theorem attObj_unique {env : Env} {ob : Bytes} {o o' : AttestationObject} {raw raw' : Bytes} (h : AttObjOf env ob o raw)
    (h' : AttObjOf env ob o' raw') : o = o' := by
  have := parseAttestationObject_ok_iff.mpr h
  rw [parseAttestationObject_ok_iff.mpr h'] at this
  cases this
  rfl

theorem row_lasts {evs post : List Event} {id key : Bytes} {n : Nat} (h : HasRow (run app evs) id key n) :
    HasRow (run app (evs ++ post)) id key n := by
  obtain ⟨c, hc, rfl, rfl, rfl⟩ := h
  obtain ⟨pre, e, u, k, ⟨p, rfl⟩, h2, h3, h4, h5⟩ := (inv_run app evs).credentials c hc
  obtain ⟨v, row, g1, g2, g3, g4, g5, g6⟩ := registered_row (evs := pre ++ e :: p ++ post) ⟨p ++ post, by simp⟩ h4
  obtain ⟨⟨us, hu⟩, -⟩ := run_prefix app (pre ++ e :: p) post
  have hu' : u ∈ (run app (pre ++ e :: p ++ post)).users := by
    rw [hu]
    exact List.mem_append_left _ h2
  have inv := inv_run app (pre ++ e :: p ++ post)
  obtain rfl : v = u := by
    have := inv.find_name g1
    rw [g2, inv.find_name hu'] at this
    exact (Option.some.inj this).symm
  refine ⟨row, g3, g4, ?_, g5.trans h3⟩
  rw [h5] at g6
  exact (Except.ok.inj g6).symm

/-- A success, in terms of the tables. -/
theorem retry_success {evs : List Event} {f : Form} {now : Int}
    (h : retryReply app evs (.registrationResponse f now) = success) :
    ∃ n c name ch u r acd k key, Submits app f n c name ∧ ch ∈ (run app evs).challenges ∧ ch.id = n ∧
      u ∈ (run app evs).users ∧ u.username = name ∧
      attestationChecks app.env (attestationArgs c ch u) = .ok r ∧ r.att.authData.attested = some acd ∧
      acd.credentialPublicKey = some k ∧ coseKey app.env k = .ok key ∧
      HasRow (run app (evs ++ [.registrationResponse f now])) c.rawId key u.id := by
  rw [retryReply, C111_tables] at h
  have h : (retryResponse app f now (run app evs)).1 = success := h
  rcases retry_response (app := app) f now (run app evs) with h1 | ⟨c, ch, u, r, h1, h2, h3, -⟩
  · rw [h1] at h
    have h : reply app evs (.registrationResponse f now) = success := h
    obtain ⟨n, c, name, ch, u, o, raw, acd, k, key, g1, g2, g3, g4, g5, g6, g7, g8, g9, g10, -, g11⟩ := registration_success h
    have hr : readResponse app true f now (run app evs) = .ok (c, ch, u) := by
      have inv := inv_run app evs
      refine readResponse_ok_iff.mpr ⟨n, name, g1, ?_, g3 ▸ inv.find_challenge g2, g6 ▸ inv.find_name g5, g4⟩
      obtain ⟨cdj, ob, e, -⟩ := g7
      have e : c.response = .attestation cdj ob := e
      rw [e]
      rfl
    have hs : (registrationResponse app f now (run app evs)).1 = success := h
    simp only [registrationResponse, hr] at hs
    obtain ⟨r, c1, c2⟩ := handleAttestation_ok_iff.mp (Prod.ext (conclude_success.mp hs) rfl)
    obtain ⟨-, ⟨raw', h6⟩, -⟩ := attestationChecks_ok_iff.mp c1
    obtain ⟨cdj, ob, e1, -, e2, -⟩ := g7
    obtain ⟨cdj', ob', e1', -, e2', -⟩ := h6
    rw [e1] at e1'
    cases e1'
    have ho := attObj_unique e2 e2'
    refine ⟨n, c, name, ch, u, r, acd, k, key, g1, g2, g3, g5, g6, c1, by rw [← ho]; exact g8, g9, g10, ?_⟩
    rw [g11]
    exact ⟨_, List.mem_append_right _ (List.mem_singleton.mpr rfl), rfl, rfl, rfl⟩
  · obtain ⟨acd, v, k, key, a1, a2, a3, a4, a5⟩ := alreadyStored_iff.mp h3
    obtain ⟨n, name, b1, -, b3, b4, -⟩ := readResponse_ok_iff.mp h1
    obtain ⟨hc1, hc2⟩ := challenge_some b3
    obtain ⟨hu1, hu2⟩ := userNamed_some b4
    obtain ⟨-, -, -, e1, -, e2, -⟩ := attestationChecks_ok_iff.mp h2
    rw [e2] at a2
    obtain ⟨hv1, hv2⟩ := userOfHandle_some a2
    obtain rfl : v = u := (inv_run app evs).handle_unique hv1 hu1 hv2
    rw [e1] at a5
    exact ⟨n, c, name, ch, v, r, acd, k, key, b1, hc1, (Option.some.inj hc2).symm, hu1, hu2, h2, a1, a3, a4, row_lasts a5⟩

/-- C111: a registration that was answered with success is answered with success again, whatever was sent in between,
while its challenge is fresh. -/
theorem C111_repaired (app : App) : Repeatable (retryReply app) app := by
  intro evs post f now now' n c name pre e ch t name' h hs ho hi ht
  have hi : Issues app pre e n ch t name' := by
    obtain ⟨⟨key, v, h1⟩, h2⟩ := hi
    refine ⟨⟨key, v, ?_⟩, h2⟩
    rw [← h1, C111_others]
    intro f t
    rintro rfl
    rcases h2 with ⟨_, h2⟩ | h2 <;> cases h2
  obtain ⟨n', c', name'', ch', u, r, acd, k, key, g1, g2, g3, g4, g5, g6, g7, g8, g9, g10⟩ := retry_success h
  obtain ⟨rfl, rfl, rfl⟩ := submits_unique hs g1
  obtain ⟨v, -, -, i3⟩ := issued_row ho hi
  have hch : ch' = ⟨n, ch, t, v.id⟩ := by
    have h1 := (inv_run app evs).find_challenge g2
    have h2 := (inv_run app evs).find_challenge i3
    rw [g3] at h1
    exact Option.some.inj (h1.symm.trans h2)
  have hrow := row_lasts (post := post) g10
  rw [List.append_assoc, List.singleton_append] at hrow
  rw [retryReply, C111_tables]
  generalize hevs : evs ++ .registrationResponse f now :: post = evs' at hrow ⊢
  obtain ⟨⟨us, hu⟩, cs, hc, -⟩ := run_prefix app evs (.registrationResponse f now :: post)
  rw [hevs] at hu hc
  have inv := inv_run app evs'
  have hu' : u ∈ (run app evs').users := by
    rw [hu]
    exact List.mem_append_left _ g4
  have hc' : ch' ∈ (run app evs').challenges := by
    rw [hc]
    exact List.mem_append_left _ g2
  obtain ⟨-, ⟨raw, w⟩, -, e1, -, e2, -⟩ := attestationChecks_ok_iff.mp g6
  have hread : readResponse app true f now' (run app evs') = .ok (c, ch', u) := by
    refine readResponse_ok_iff.mpr ⟨n, name, hs, ?_, g3 ▸ inv.find_challenge hc', g5 ▸ inv.find_name hu', ?_⟩
    · obtain ⟨cdj, ob, e, -⟩ := w
      have e : c.response = .attestation cdj ob := e
      rw [e]
      rfl
    · rw [hch]
      exact ht
  have hst : alreadyStored app.env r (run app evs') = true := by
    refine alreadyStored_iff.mpr ⟨acd, u, k, key, g7, ?_, g8, g9, ?_⟩
    · rw [e2]
      exact inv.find_handle hu'
    · rw [e1]
      exact hrow
  show (retryResponse app f now' (run app evs')).1 = success
  simp only [retryResponse, hread]
  rw [conclude_success]
  have := handleAttestation_ok_iff.mpr ⟨r, g6, show (retryRegistrar app.env).registerAttestation r (run app evs') =
    (.ok none, run app evs') by simp only [retryRegistrar, retryAttestation, hst, if_true]⟩
  rw [this]

/-- C111: nothing more is registered: where it answers a registration with success the application has registered the
credential for the user, then or before, with a key that is stored alike. -/
theorem C111_registered {evs : List Event} {e : Event} {id : Bytes} {name : String} {k : CPK}
    (h : RegistersBy (retryReply app) app evs e id name k) :
    ∃ pre e' k', Occurs (evs ++ [e]) pre e' ∧ Registers app pre e' id name k' ∧
      coseKey app.env k' = coseKey app.env k := by
  obtain ⟨f, t, n, c, cdj, ob, o, raw, acd, rfl, h1, h2, rfl, h4, h5, h6, h7⟩ := h
  obtain ⟨n', c', name', ch, u, r, acd', k', key, g1, g2, g3, g4, rfl, g6, g7, g8, g9, row, w1, w2, w3, w4⟩ := retry_success h1
  obtain ⟨rfl, rfl, rfl⟩ := submits_unique h2 g1
  obtain ⟨-, ⟨raw', cdj', ob', e1, -, e2, -⟩, -⟩ := attestationChecks_ok_iff.mp g6
  have e1 : c.response = .attestation cdj' ob' := e1
  rw [h4] at e1
  cases e1
  have ho := attObj_unique h5 e2
  rw [← ho, h6] at g7
  cases g7
  rw [h7] at g8
  cases g8
  have inv := inv_run app (evs ++ [.registrationResponse f t])
  obtain ⟨pre, e', v, k', o1, o2, o3, o4, o5⟩ := inv.credentials row w1
  obtain ⟨⟨us, hu⟩, -⟩ := run_prefix app evs [.registrationResponse f t]
  obtain rfl : v = u := by
    refine inv.userId_unique o2 ?_ (o3.trans w4)
    rw [hu]
    exact List.mem_append_left _ g4
  rw [w2] at o4
  exact ⟨pre, e', k', o1, o4, by rw [o5, w3, g9]⟩

/-- C111: a login is with a credential that the user registered before, and signed with its key. -/
theorem C111_login (codec : CodecLaws app.env) {evs : List Event} {f : Form} {now : Int}
    (h : retryReply app evs (.authenticationResponse f now) = success) :
    ∃ n c name pre e k cdj raw sig handle, Submits app f n c name ∧ Occurs evs pre e ∧
      RegistersBy (retryReply app) app pre e c.rawId name k ∧ c.response = .assertion cdj raw sig handle ∧
      SignedBy app.env k sig (raw ++ app.env.sha256 cdj) := by
  rw [C111_others _ (by intro _ _ h; cases h)] at h
  obtain ⟨n, c, name, pre, e, k, cdj, raw, sig, handle, h1, h2, h3, h4⟩ := C49_login codec h
  refine ⟨n, c, name, pre, e, k, cdj, raw, sig, handle, h1, h2, ?_, h4⟩
  obtain ⟨f', t, n', c', cdj', ob, o, raw', acd, g1, g2, g3⟩ := h3
  exact ⟨f', t, n', c', cdj', ob, o, raw', acd, g1, C111_success g2, g3⟩

/-- C111: what the application has answered with success it never answers with success again. -/
theorem C111_never {evs post : List Event} {f : Form} {now now' : Int}
    (h : reply app evs (.registrationResponse f now) = success) :
    reply app (evs ++ .registrationResponse f now :: post) (.registrationResponse f now') ≠ success := by
  intro h'
  obtain ⟨n, c, name, ch, u, r, acd, k, key, g1, -, -, -, -, -, -, -, -, hrow⟩ := retry_success (C111_success h)
  obtain ⟨_, _, _, _, _, _, _, _, _, _, e1, -, -, -, -, -, -, -, -, -, hnew, -⟩ := registration_success h'
  obtain ⟨rfl, rfl, rfl⟩ := submits_unique g1 e1
  obtain ⟨row, w1, w2, -⟩ := row_lasts (post := post) hrow
  rw [List.append_assoc, List.singleton_append] at w1
  exact hnew row w1 w2

/-- C111 is false of the application wherever a registration succeeds. -/
theorem C111_refuted {evs : List Event} {f : Form} {now : Int}
    (h : reply app evs (.registrationResponse f now) = success) : ¬ Repeatable (reply app) app := by
  intro hr
  obtain ⟨n, c, name, ch, u, -, -, -, -, -, g1, g2, g3, g4, -⟩ := registration_success h
  obtain ⟨pre, e, v, h1, -, -, h2⟩ := (inv_run app evs).challenges ch g2
  rw [g3] at h2
  exact C111_never (post := []) (now' := now) h (hr _ _ _ _ _ _ _ _ _ _ _ _ _ h g1 h1 h2 g4)

end WebAuthn.Flask
