import Verif.Lemmas.FlaskFaults
import Verif.Props.FlaskAtomic
import Verif.Props.Lockout

/-!
# Statements that fail (C73)

Whatever statements of the requests fail, before or after they had their effect, what C63,
C65, C67 and C70 say of logins and registrations holds.
-/

namespace WebAuthn.Flask

open WebAuthn WebAuthn.Spec WebAuthn.Props

variable {ι : Type} [DecidableEq ι] {app : App} {reqs : ι → Event} {sched : List (ι × Fault)}

theorem success_not_failed : ¬ Failed success := fun h => failed_ne_success h rfl

/-! ## The answers and the tables -/

/-- C73: the tables are those of an application on which some of the statements were
executed, in the same order, and none failed.  A request that does not fail is answered as
there, and has all of its statements executed there.  Every answer is either one that is
given there, or to a failure. -/
theorem C73_faults (app : App) (reqs : ι → Event) (sched : List (ι × Fault)) :
    ∃ sched' : List ι, sched'.Sublist (sched.map Prod.fst) ∧
      (serveFaulty Task.step app reqs sched).db = (serveAll app reqs sched').db ∧
      (∀ i, Spared sched i → sched'.count i = (sched.map Prod.fst).count i ∧
        faultyAnswer Task.step app reqs sched i = answer app reqs sched' i) ∧
      ∀ i r, faultyAnswer Task.step app reqs sched i = some r →
        answer app reqs sched' i = some r ∨ Failed r :=
  ⟨executed sched, executed_sublist sched, (simulates halts_step app reqs sched).db,
    fun _ h => ⟨executed_count h, spared_answer halts_step h⟩, fun _ _ h => faulty_answer halts_step h⟩

/-- C73, repaired: as `C73_faults`. -/
theorem C73_repaired_faults (app : App) (reqs : ι → Event) (sched : List (ι × Fault)) :
    ∃ sched' : List ι, sched'.Sublist (sched.map Prod.fst) ∧
      (serveFaulty Task.atomicStep app reqs sched).db = (serveAtomic app reqs sched').db ∧
      (∀ i, Spared sched i → sched'.count i = (sched.map Prod.fst).count i ∧
        faultyAnswer Task.atomicStep app reqs sched i = atomicAnswer app reqs sched' i) ∧
      ∀ i r, faultyAnswer Task.atomicStep app reqs sched i = some r →
        atomicAnswer app reqs sched' i = some r ∨ Failed r :=
  ⟨executed sched, executed_sublist sched, (simulates halts_atomicStep app reqs sched).db,
    fun _ h => ⟨executed_count h, spared_answer halts_atomicStep h⟩,
    fun _ _ h => faulty_answer halts_atomicStep h⟩

/-- C73: the tables stay keyed. -/
theorem C73_tables (app : App) (reqs : ι → Event) (sched : List (ι × Fault)) :
    Keyed (serveFaulty Task.step app reqs sched).db := by
  rw [(simulates halts_step app reqs sched).db]
  exact C63_tables app reqs _

/-- C73: a request is answered after at most six statements. -/
theorem C73_answered {i : ι} (h : 6 ≤ (sched.map Prod.fst).count i) :
    ∃ r, faultyAnswer Task.step app reqs sched i = some r := by
  by_cases hs : Spared sched i
  · rw [spared_answer halts_step hs, answerBy_step]
    exact C63_answered (by rw [executed_count hs]; exact h)
  · obtain ⟨r, hr, -⟩ := (simulates halts_step app reqs sched).dead i (dead_of hs)
    exact ⟨r, faultyAnswer_some.mpr hr⟩

/-! ## Between the servers -/

theorem answer_of_faulty {i : ι} (h : faultyAnswer Task.step app reqs sched i = some success) :
    answer app reqs (executed sched) i = some success :=
  (faulty_answer halts_step h).resolve_right success_not_failed

theorem atomic_of_faulty {i : ι} (h : faultyAnswer Task.atomicStep app reqs sched i = some success) :
    atomicAnswer app reqs (executed sched) i = some success :=
  (faulty_answer halts_atomicStep h).resolve_right success_not_failed

theorem registered_of_faulty {j : ι} {id : Bytes} {name : String} {k : CPK}
    (h : RegisteredBy (faultyAnswer Task.step app reqs) app reqs sched j id name k) :
    RegisteredAt app reqs (executed sched) j id name k := by
  obtain ⟨f, t, n, c, cdj, ob, o, raw, acd, h1, h2, h3⟩ := h
  exact ⟨f, t, n, c, cdj, ob, o, raw, acd, h1, answer_of_faulty h2, h3⟩

theorem issued_of_faulty {j : ι} {n : Nat} {ch : Bytes} {t : Int} {name : String}
    (h : IssuedBy (faultyAnswer Task.step app reqs) reqs sched j n ch t name) :
    IssuedAt app reqs (executed sched) j n ch t name := by
  obtain ⟨⟨key, v, h1⟩, h2⟩ := h
  exact ⟨⟨key, v, (faulty_answer halts_step h1).resolve_right fun h => failed_ne_json h _ rfl⟩, h2⟩

theorem succeeded_of_registered {j : ι} {id : Bytes} {name : String} {k : CPK}
    (h : RegisteredAt app reqs (executed sched) j id name k) :
    ToRegister app (reqs j) id name k ∧ Succeeded (faultyAnswer Task.step app reqs) sched j := by
  obtain ⟨f, t, n, c, cdj, ob, o, raw, acd, h1, h2, h3⟩ := h
  exact ⟨⟨f, t, n, c, cdj, ob, o, raw, acd, h1, h3⟩, answer_faulty halts_step h2⟩

theorem succeeded_of_login {j : ι} {id : Bytes} {m : Int}
    (h : AuthenticatedAt app reqs (executed sched) j id m) :
    ∃ k : Nat, m = k ∧ ToLogIn app (reqs j) id k ∧
      Succeeded (faultyAnswer Task.step app reqs) sched j := by
  obtain ⟨f, t, n, c, name, k, h1, h2, h3, h4, h5, h6⟩ := h
  exact ⟨k, h5, ⟨f, t, n, c, name, h1, h3, h4, h6⟩, answer_faulty halts_step h2⟩

theorem challenged_of_issued {j : ι} {n : Nat} {ch : Bytes} {t : Int} {name : String}
    (h : IssuedAt app reqs (executed sched) j n ch t name) : ToChallenge (reqs j) ch t name ∧
      (IssuedBy (faultyAnswer Task.step app reqs) reqs sched j n ch t name ∨ (j, .after) ∈ sched) := by
  obtain ⟨⟨key, v, h1⟩, h2⟩ := h
  refine ⟨h2, ?_⟩
  rcases answer_faulty halts_step h1 with h | h
  · exact Or.inl ⟨⟨key, v, h⟩, h2⟩
  · exact Or.inr h

/-! ## What is accepted -/

/-- C73: who logs in has signed with the key of a credential that was registered before for
the user.  Its registration may have been answered with a failure after the commit. -/
theorem C73_login (codec : CodecLaws app.env) {i : ι} {f : Form} {now : Int}
    (hi : reqs i = .authenticationResponse f now)
    (h : faultyAnswer Task.step app reqs sched i = some success) :
    ∃ n c name pre j k cdj raw sig handle, Submits app f n c name ∧
      NotYet (faultyAnswer Task.step app reqs) sched i pre ∧
      ToRegister app (reqs j) c.rawId name k ∧ Succeeded (faultyAnswer Task.step app reqs) pre j ∧
      c.response = .assertion cdj raw sig handle ∧
      SignedBy app.env k sig (raw ++ app.env.sha256 cdj) := by
  obtain ⟨n, c, name, p, j, k, cdj, raw, sig, handle, h1, h2, h3, h4, h5⟩ :=
    C63_login codec hi (answer_of_faulty h)
  obtain ⟨pre, g1, rfl, g2⟩ := before_faulty halts_step h success_not_failed h2.1 h2.2
  obtain ⟨g3, g4⟩ := succeeded_of_registered h3
  exact ⟨n, c, name, pre, j, k, cdj, raw, sig, handle, h1, ⟨g1, g2⟩, g3, g4, h4, h5⟩

/-- C73: what is accepted answers a challenge that was drawn at most 60000 ms ago, for a
request that was answered with it or failed after the commit. -/
theorem C73_fresh_challenge {i : ι} {f : Form} {now : Int} {n : Nat} {c : Credential}
    {name : String} (hi : reqs i = .registrationResponse f now ∨ reqs i = .authenticationResponse f now)
    (hs : Submits app f n c name) (h : faultyAnswer Task.step app reqs sched i = some success) :
    ∃ pre j ch t name' cdj d text, NotYet (faultyAnswer Task.step app reqs) sched i pre ∧
      ToChallenge (reqs j) ch t name' ∧
      (IssuedBy (faultyAnswer Task.step app reqs) reqs pre j n ch t name' ∨ (j, .after) ∈ pre) ∧
      now - t ≤ 60000 ∧
      ((∃ ob, c.response = .attestation cdj ob) ∨
        ∃ raw sig handle, c.response = .assertion cdj raw sig handle) ∧
      ClientJson app.env cdj d ∧ Lookup d (.str "challenge") (.str text) ∧ Base64UrlText text ch := by
  obtain ⟨p, j, ch, t, name', cdj, d, text, h1, h2, h3⟩ :=
    C63_fresh_challenge hi hs (answer_of_faulty h)
  obtain ⟨pre, g1, rfl, g2⟩ := before_faulty halts_step h success_not_failed h1.1 h1.2
  obtain ⟨g3, g4⟩ := challenged_of_issued h2
  exact ⟨pre, j, ch, t, name', cdj, d, text, ⟨g1, g2⟩, g3, g4, h3⟩

/-- C73: a registration that is accepted was made on the page of the application, for its
RP id, by a user who was present. -/
theorem C73_registration_scope {i : ι} {f : Form} {now : Int}
    (hi : reqs i = .registrationResponse f now)
    (h : faultyAnswer Task.step app reqs sched i = some success) :
    ∃ n c name cdj ob o raw d text, Submits app f n c name ∧ c.response = .attestation cdj ob ∧
      ClientJson app.env cdj d ∧ Lookup d (.str "type") (.str "webauthn.create") ∧
      Lookup d (.str "origin") (.str text) ∧
      OriginOf app.env text ⟨"http", "localhost:5000", 5000⟩ ∧
      AttObjOf app.env ob o raw ∧ RpHashOk app.env raw "localhost" ∧ FlagSet raw 0 :=
  C63_registration_scope hi (answer_of_faulty h)

/-- C73: the same of an authentication. -/
theorem C73_authentication_scope {i : ι} {f : Form} {now : Int}
    (hi : reqs i = .authenticationResponse f now)
    (h : faultyAnswer Task.step app reqs sched i = some success) :
    ∃ n c name cdj raw sig handle d text, Submits app f n c name ∧
      c.response = .assertion cdj raw sig handle ∧
      ClientJson app.env cdj d ∧ Lookup d (.str "type") (.str "webauthn.get") ∧
      Lookup d (.str "origin") (.str text) ∧
      OriginOf app.env text ⟨"http", "localhost:5000", 5000⟩ ∧
      RpHashOk app.env raw "localhost" ∧ FlagSet raw 0 :=
  C63_authentication_scope hi (answer_of_faulty h)

/-- C73: no credential is registered twice. -/
theorem C73_registered_once {j j' : ι} {id : Bytes} {name name' : String} {k k' : CPK}
    (h : RegisteredBy (faultyAnswer Task.step app reqs) app reqs sched j id name k)
    (h' : RegisteredBy (faultyAnswer Task.step app reqs) app reqs sched j' id name' k') : j = j' :=
  C63_registered_once (registered_of_faulty h) (registered_of_faulty h')

/-- C73: no challenge is issued twice. -/
theorem C73_issued_once {j j' : ι} {n n' : Nat} {ch ch' : Bytes} {t t' : Int} {name name' : String}
    (h : IssuedBy (faultyAnswer Task.step app reqs) reqs sched j n ch t name)
    (h' : IssuedBy (faultyAnswer Task.step app reqs) reqs sched j' n' ch' t' name')
    (he : n = n' ∨ ch = ch') : j = j' :=
  C63_issued_once (issued_of_faulty h) (issued_of_faulty h') he

/-- C73: a login with a registered key was approved by its holder, on the page of the
application, for a challenge that was drawn at most 60000 ms ago. -/
theorem C73_approved (codec : CodecLaws app.env) (json : JsonLaw app.env)
    {i j : ι} {f : Form} {now : Int} {n : Nat} {c : Credential} {name name' : String} {k : CPK}
    {acts : Approval → Prop} (holder : Holder app.env k (SentIn app reqs) acts)
    (hj : RegisteredBy (faultyAnswer Task.step app reqs) app reqs sched j c.rawId name' k)
    (hi : reqs i = .authenticationResponse f now)
    (h : faultyAnswer Task.step app reqs sched i = some success) (hf : Submits app f n c name) :
    name' = name ∧ ∃ a pre j' ch t name'', acts a ∧ Approves app.env a c ch ∧
      NotYet (faultyAnswer Task.step app reqs) sched i pre ∧ ToChallenge (reqs j') ch t name'' ∧
      (IssuedBy (faultyAnswer Task.step app reqs) reqs pre j' n ch t name'' ∨ (j', .after) ∈ pre) ∧
      now - t ≤ 60000 := by
  obtain ⟨h1, a, p, j', ch, t, name'', h2, h3, h4, h5, h6⟩ :=
    C65_overlapping codec json holder (registered_of_faulty hj) hi (answer_of_faulty h) hf
  obtain ⟨pre, g1, rfl, g2⟩ := before_faulty halts_step h success_not_failed h4.1 h4.2
  obtain ⟨g3, g4⟩ := challenged_of_issued h5
  exact ⟨h1, a, pre, j', ch, t, name'', h2, h3, ⟨g1, g2⟩, g3, g4, h6⟩

/-- C73, repaired: one approval is good for one login, whatever fails. -/
theorem C73_repaired_one_each (codec : CodecLaws app.env) (json : JsonLaw app.env)
    {j : ι} {id : Bytes} {name : String} {k : CPK} {acts : Approval → Prop}
    (holder : Holder app.env k (SentIn app reqs) acts)
    (hr : RegisteredBy (faultyAnswer Task.atomicStep app reqs) app reqs sched j id name k) :
    OneEach app.env acts (LoginBy (faultyAnswer Task.atomicStep app reqs) app reqs sched) id := by
  obtain ⟨f, t, n, c, cdj, ob, o, raw, acd, h1, h2, h3⟩ := hr
  obtain ⟨approval, g1, g2⟩ := C67_repaired codec json holder (sched := executed sched)
    ⟨f, t, n, c, cdj, ob, o, raw, acd, h1, atomic_of_faulty h2, h3⟩
  have low : ∀ {c i}, LoginBy (faultyAnswer Task.atomicStep app reqs) app reqs sched c i →
      LoginBy (atomicAnswer app reqs) app reqs (executed sched) c i := by
    rintro c i ⟨f, t, n, name, e1, e2, e3⟩
    exact ⟨f, t, n, name, e1, atomic_of_faulty e2, e3⟩
  exact ⟨approval, fun i c h => g1 i c (low h), fun i j c c' h e h' => g2 i j c c' (low h) e (low h')⟩

/-! ## What is served -/

/-- C73: an honest registration whose own statements do not fail is accepted, when nobody
else has registered the credential id, or failed after doing so.  Requests that failed before
their statement had an effect, such as an earlier attempt, are no obstacle. -/
theorem C73_registration (codec : CodecLaws app.env) (json : JsonLaw app.env)
    {pre : List (ι × Fault)} {i j : ι} {f : Form} {now t : Int} {n : Nat} {ch key : Bytes}
    {name chText : String} {c : Credential} {cdj ob raw : Bytes} {ad : AuthData}
    {acd : AttestedCredentialData} {k : CPK}
    -- the challenge was issued, then the response sent
    (hpre : pre <+: sched) (hi : IssuedBy (faultyAnswer Task.step app reqs) reqs pre j n ch t name)
    (ht : now - t ≤ 60000)
    (hreq : reqs i = .registrationResponse f now) (hnot : i ∉ pre.map Prod.fst)
    (hspared : Spared sched i) (hcount : 4 ≤ (sched.map Prod.fst).count i)
    -- the form and the response of the browser
    (hf : Submits app f n c name) (hresp : c.response = .attestation cdj ob)
    (hcdj : ClientDataText "webauthn.create" chText "http://localhost:5000" none cdj)
    (hch : Base64UrlText chText ch) (hob : EncodedNoneAttestation app.env raw ob)
    -- the authenticator data
    (had : EncodedAuthData app.env ad raw) (hacd : ad.attested = some acd)
    (hk : acd.credentialPublicKey = some k) (hkey : coseKey app.env k = .ok key)
    (hrp : RpHashOk app.env raw "localhost") (hup : FlagSet raw 0)
    -- the credential id is new
    (hnew : ∀ p j name k, p ++ [(i, .no)] <+: sched → (p.map Prod.fst).count i = 3 → j ≠ i →
      ToRegister app (reqs j) c.rawId name k →
      ¬ Succeeded (faultyAnswer Task.step app reqs) p j) :
    faultyAnswer Task.step app reqs sched i = some success := by
  rw [spared_answer halts_step hspared, answerBy_step]
  refine C63_registration codec json (executed_mono hpre) (issued_of_faulty hi) ht hreq
    (fun h => hnot ((executed_sublist pre).subset h)) (by rw [executed_count hspared]; exact hcount)
    hf hresp hcdj hch hob had hacd hk hkey hrp hup ?_
  intro p' j' name' k' h1 h2 h3 h4
  obtain ⟨p, g, h5, rfl⟩ := executed_snoc_prefix h1
  obtain rfl : g = .no := hspared g (h5.subset (by simp))
  obtain ⟨h6, h7⟩ := succeeded_of_registered h4
  refine hnew p j' name' k' h5 ?_ h3 h6 h7
  rw [← executed_count fun f hf => hspared f (h5.subset (List.mem_append_left _ hf))]
  exact h2

/-- C73: an honest login whose own statements do not fail is accepted, when its counter
exceeds those of the logins that have succeeded, or have failed after a statement had its
effect. -/
theorem C73_authentication (codec : CodecLaws app.env) (json : JsonLaw app.env)
    {pre : List (ι × Fault)} {i j j' : ι} {f : Form} {now t : Int} {n : Nat} {ch : Bytes}
    {name chText : String} {c : Credential} {cdj raw sig : Bytes} {handle : Option Bytes}
    {ad : AuthData} {k : CPK}
    -- the challenge was issued and the credential registered, then the response sent
    (hpre : pre <+: sched) (hi : IssuedBy (faultyAnswer Task.step app reqs) reqs pre j n ch t name)
    (ht : now - t ≤ 60000)
    (hr : RegisteredBy (faultyAnswer Task.step app reqs) app reqs pre j' c.rawId name k)
    (hreq : reqs i = .authenticationResponse f now) (hnot : i ∉ pre.map Prod.fst)
    (hspared : Spared sched i) (hcount : 6 ≤ (sched.map Prod.fst).count i)
    -- the form and the response of the browser
    (hf : Submits app f n c name) (hresp : c.response = .assertion cdj raw sig handle)
    (hcdj : ClientDataText "webauthn.get" chText "http://localhost:5000" none cdj)
    (hch : Base64UrlText chText ch)
    (hhandle : ∀ h, handle = some h →
      ∃ u ∈ (serveFaulty Task.step app reqs pre).db.users, u.username = name ∧ u.handle = h)
    -- the authenticator data and its signature
    (had : EncodedAuthData app.env ad raw) (hrp : RpHashOk app.env raw "localhost")
    (hup : FlagSet raw 0) (hsig : SignedBy app.env k sig (raw ++ app.env.sha256 cdj))
    -- the counter
    (hcounter : ∀ p j m, p ++ [(i, .no)] <+: sched → (p.map Prod.fst).count i = 2 → j ≠ i →
      ToLogIn app (reqs j) c.rawId m → Succeeded (faultyAnswer Task.step app reqs) p j →
      m < ad.signCount) :
    faultyAnswer Task.step app reqs sched i = some success := by
  rw [(simulates halts_step app reqs pre).db] at hhandle
  rw [spared_answer halts_step hspared, answerBy_step]
  refine C63_authentication codec json (executed_mono hpre) (issued_of_faulty hi) ht
    (registered_of_faulty hr) hreq (fun h => hnot ((executed_sublist pre).subset h))
    (by rw [executed_count hspared]; exact hcount) hf hresp hcdj hch hhandle had hrp hup hsig ?_
  intro p' j' m h1 h2 h3 h4
  obtain ⟨p, g, h5, rfl⟩ := executed_snoc_prefix h1
  obtain rfl : g = .no := hspared g (h5.subset (by simp))
  obtain ⟨x, rfl, h6, h7⟩ := succeeded_of_login h4
  refine Int.ofNat_lt.mpr (hcounter p j' x h5 ?_ h3 h6 h7)
  rw [← executed_count fun f hf => hspared f (h5.subset (List.mem_append_left _ hf))]
  exact h2

/-- C73: the holder of a registered key is not locked out by the failures of others. -/
theorem C73_lockout (codec : CodecLaws app.env) (json : JsonLaw app.env)
    {pre : List (ι × Fault)} {i j j' : ι} {f : Form} {now t : Int} {n : Nat} {ch : Bytes}
    {name chText : String} {c : Credential} {cdj raw sig : Bytes} {handle : Option Bytes}
    {ad : AuthData} {k : CPK} {acts : Approval → Prop}
    -- the challenge was issued and the credential registered, then the response sent
    (hpre : pre <+: sched) (hi : IssuedBy (faultyAnswer Task.step app reqs) reqs pre j n ch t name)
    (ht : now - t ≤ 60000)
    (hr : RegisteredBy (faultyAnswer Task.step app reqs) app reqs pre j' c.rawId name k)
    (hreq : reqs i = .authenticationResponse f now) (hnot : i ∉ pre.map Prod.fst)
    (hspared : Spared sched i) (hcount : 6 ≤ (sched.map Prod.fst).count i)
    -- the form and the response of the browser
    (hf : Submits app f n c name) (hresp : c.response = .assertion cdj raw sig handle)
    (hcdj : ClientDataText "webauthn.get" chText "http://localhost:5000" none cdj)
    (hch : Base64UrlText chText ch)
    (hhandle : ∀ h, handle = some h →
      ∃ u ∈ (serveFaulty Task.step app reqs pre).db.users, u.username = name ∧ u.handle = h)
    -- the authenticator data and its signature
    (had : EncodedAuthData app.env ad raw) (hrp : RpHashOk app.env raw "localhost")
    (hup : FlagSet raw 0) (hsig : SignedBy app.env k sig (raw ++ app.env.sha256 cdj))
    -- the key is used by its holder, who counts
    (holder : Holder app.env k (SentIn app reqs) acts)
    (hlatest : ∀ a, acts a → a.raw ≠ raw →
      ∃ m : Nat, BigEndian ((a.raw.drop 33).take 4) m ∧ m < ad.signCount)
    (hkept : ∀ j f' t' n' c' name' cdj' sig' handle', j ≠ i → reqs j = .authenticationResponse f' t' →
      Submits app f' n' c' name' → c'.response ≠ .assertion cdj' raw sig' handle') :
    faultyAnswer Task.step app reqs sched i = some success := by
  rw [(simulates halts_step app reqs pre).db] at hhandle
  rw [spared_answer halts_step hspared, answerBy_step]
  exact C70_overlapping codec json (executed_mono hpre) (issued_of_faulty hi) ht
    (registered_of_faulty hr) hreq (fun h => hnot ((executed_sublist pre).subset h))
    (by rw [executed_count hspared]; exact hcount) hf hresp hcdj hch hhandle had hrp hup hsig holder
    hlatest hkept

/-- C73: a request for a registration whose own statements do not fail is answered with a
challenge, when the user is known and nobody else is given the same random bytes. -/
theorem C73_registration_request_known {pre : List (ι × Fault)} {i j : ι} {name : String}
    {hd ch ch' : Bytes} {n' : Nat} {t t' : Int} (hpre : pre <+: sched)
    (hknown : IssuedBy (faultyAnswer Task.step app reqs) reqs pre j n' ch' t' name)
    (hreq : reqs i = .registrationRequest (some name) hd ch t) (hnot : i ∉ pre.map Prod.fst)
    (hspared : Spared sched i) (hcount : 2 ≤ (sched.map Prod.fst).count i)
    (hfresh : ∀ j t' name', j ≠ i → ¬ ToChallenge (reqs j) ch t' name') :
    ∃ n, IssuedBy (faultyAnswer Task.step app reqs) reqs sched i n ch t name := by
  obtain ⟨n, ⟨key, v, h1⟩, h2⟩ := C63_registration_request_known (executed_mono hpre)
    (issued_of_faulty hknown) hreq (fun h => hnot ((executed_sublist pre).subset h))
    (by rw [executed_count hspared]; exact hcount) (fun j n' t' name' hj h => hfresh j t' name' hj h.2)
  exact ⟨n, ⟨key, v, (spared_answer halts_step hspared).trans h1⟩, h2⟩

/-- C73, repaired: a request for a registration whose own statements do not fail is answered
with a challenge, when nobody else is given the same random bytes.  The user may be one whom a
request that failed has left behind. -/
theorem C73_repaired_registration_request {i : ι} {name : String} {hd ch : Bytes} {t : Int}
    (hreq : reqs i = .registrationRequest (some name) hd ch t)
    (hspared : Spared sched i) (hcount : 3 ≤ (sched.map Prod.fst).count i)
    (hhandle : ∀ j name' hd' ch' t', j ∈ sched.map Prod.fst → j ≠ i →
      reqs j = .registrationRequest (some name') hd' ch' t' → hd' ≠ hd)
    (hfresh : ∀ j t' name', j ≠ i → ¬ ToChallenge (reqs j) ch t' name') :
    ∃ n, IssuedBy (faultyAnswer Task.atomicStep app reqs) reqs sched i n ch t name := by
  obtain ⟨n, ⟨key, v, h1⟩, h2⟩ := C63_repaired_registration_request (sched := executed sched) hreq
    (by rw [executed_count hspared]; exact hcount)
    (fun j name' hd' ch' t' hj => hhandle j name' hd' ch' t' ((executed_sublist sched).subset hj))
    (fun j n' t' name' hj h => hfresh j t' name' hj h.2)
  exact ⟨n, ⟨key, v, (spared_answer halts_atomicStep hspared).trans h1⟩, h2⟩

end WebAuthn.Flask
