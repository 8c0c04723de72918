import Verif.Props.FlaskFaults
import Verif.Props.LockoutDemo
import Verif.Props.FlaskAtomicDemo

/-!
# Concrete runs of the example application with statements that fail (C73)

The requests are those of `Verif/Props/FlaskThreadsDemo.lean`.
-/

namespace WebAuthn.Flask

open WebAuthn WebAuthn.Spec WebAuthn.Props

namespace Faults

open Run Threads

def fine (l : List Nat) : List (Nat × Fault) := l.map fun i => (i, .no)

/-- Ada asks for a registration; another request of hers fails after the commit of the
challenge; Ada registers. -/
def start : List (Nat × Fault) := fine [0, 0, 0] ++ [(5, .no), (5, .after)] ++ fine [1, 1, 1, 1]

/-- The login 3 fails at its commit; it is tried again as 4. -/
def sched : List (Nat × Fault) := start ++ fine [3, 3, 3, 3, 3] ++ [(3, .before)] ++ fine [4, 4, 4, 4, 4, 4]

theorem spared {s : List (Nat × Fault)} {i : Nat} (h : ∀ p ∈ s, p.1 = i → p.2 = .no) : Spared s i :=
  fun f hf => h (i, f) hf rfl

theorem spared_eq {s : List (Nat × Fault)} {i : Nat} (h : ∀ p ∈ s, p.1 = i → p.2 = .no) :
    faultyAnswer Task.step app reqs s i = answer app reqs (executed s) i :=
  spared_answer halts_step (spared h)

theorem atomic_spared_eq {s : List (Nat × Fault)} {i : Nat} (h : ∀ p ∈ s, p.1 = i → p.2 = .no) :
    faultyAnswer Task.atomicStep app reqs s i = atomicAnswer app reqs (executed s) i :=
  spared_answer halts_atomicStep (spared h)

theorem db_eq (s : List (Nat × Fault)) :
    (serveFaulty Task.step app reqs s).db = (serveAll app reqs (executed s)).db :=
  (simulates halts_step app reqs s).db

theorem db_eq' : (serveFaulty Task.step app reqs' (fine base)).db = (serveAll app reqs' base).db :=
  (simulates halts_step app reqs' (fine base)).db

theorem issued {s : List (Nat × Fault)} (h : ∀ p ∈ s, p.1 = 0 → p.2 = .no)
    (hp : [0, 0, 0] <+: executed s) :
    IssuedBy (faultyAnswer Task.step app reqs) reqs s 0 1 challenge1 0 "ada" := by
  obtain ⟨⟨key, v, h1⟩, h2⟩ := issuedAt_mono hp issued0
  exact ⟨⟨key, v, (spared_eq h).trans h1⟩, h2⟩

theorem registered {s : List (Nat × Fault)} (h : ∀ p ∈ s, p.1 = 1 → p.2 = .no)
    (hp : [0, 0, 0] <+: executed s) (hc : 4 ≤ (executed s).count 1) :
    RegisteredBy (faultyAnswer Task.step app reqs) app reqs s 1 Demo.credId "ada" Demo.key := by
  obtain ⟨f, t, n, c, cdj, ob, o, raw, acd, h1, h2, h3⟩ := registered1 hp hc
  exact ⟨f, t, n, c, cdj, ob, o, raw, acd, h1, (spared_eq h).trans h2, h3⟩

/-- The honest registration succeeds (an instance of `C73_registration`). -/
example : faultyAnswer Task.step app reqs start 1 = some success := by
  refine C73_registration (app := app) Demo.codec Demo.json (pre := fine [0, 0, 0]) (j := 0)
    (c := regCredential challenge1)
    (cdj := clientData "webauthn.create" challenge1) (ob := attObj) (acd := Demo.attested)
    (k := Demo.key) ⟨_, rfl⟩ (issued (by decide) (by decide)) ?_ rfl (by decide) (spared (by decide))
    (by decide) (form1 _ _) rfl (clientData_text _ _)
    (C38_base64url_encoding _).1 attObj_enc regRaw_enc ?_ ?_ storedKey_eq ?_ ?_ ?_
  · decide
  · rfl
  · rfl
  · exact rpHash_enc regRaw_enc rfl
  · exact Demo.flagSet_enc regRaw_enc (by decide)
  · rintro p j name k - - hj ⟨f, t, _, _, _, _, _, _, _, h, -⟩ -
    match j with
    | 1 => exact hj rfl
    | 0 | 2 | 3 | 4 | 5 | 6 | 7 => cases h
    | n + 8 => cases h

theorem to_log_in {j : Nat} {id : Bytes} {m : Nat} (h : ToLogIn app (reqs j) id m) :
    ∃ f t, reqs j = .authenticationResponse f t ∧ (j = 2 ∨ j = 3 ∨ j = 4) := by
  obtain ⟨f, t, _, _, _, h, -⟩ := h
  refine ⟨f, t, h, ?_⟩
  match j with
  | 2 => exact Or.inl rfl
  | 3 => exact Or.inr (Or.inl rfl)
  | 4 => exact Or.inr (Or.inr rfl)
  | 0 | 1 | 5 | 6 | 7 => cases h
  | n + 8 => cases h

theorem start_ada : (⟨1, "ada", handle1⟩ : User) ∈ (serveFaulty Task.step app reqs start).db.users := by
  rw [db_eq]
  refine (serveAll_grows (app := app) (reqs := reqs) (pre := [0, 0, 0]) (sched := executed start)
    (by decide)).user ?_
  rw [show (serveAll app reqs [0, 0, 0]).db.users = [⟨1, "ada", handle1⟩] from rfl]
  simp

/-- The second attempt succeeds (an instance of `C73_authentication`). -/
theorem again : faultyAnswer Task.step app reqs sched 4 = some success := by
  refine C73_authentication (app := app) Demo.codec Demo.json (pre := start) (j := 0) (j' := 1)
    (c := authCredential 2 challenge1) (cdj := clientData "webauthn.get" challenge1)
    (raw := authRaw 2) (sig := signature 2 challenge1) (handle := some handle1) (ad := authAd 2)
    (k := Demo.key) (now := 9500) (by decide) (issued (by decide) (by decide)) (by decide)
    (registered (by decide) (by decide) (by decide)) rfl (by decide) (spared (by decide)) (by decide)
    (form1 _ _) rfl (clientData_text _ _) (C38_base64url_encoding _).1 ?_ (authRaw_enc 2) ?_ ?_
    (signature_ok 2 challenge1) ?_
  · intro h hh
    obtain rfl := Option.some.inj hh
    exact ⟨_, start_ada, rfl, rfl⟩
  · exact rpHash_enc (authRaw_enc 2) rfl
  · exact Demo.flagSet_enc (authRaw_enc 2) (by decide)
  · intro p j m hp _ hj hl hs
    exfalso
    have hp : p <+: sched := (List.prefix_append _ _).trans hp
    obtain ⟨f, t, he, hjs⟩ := to_log_in hl
    rcases hs with hs | hs
    · have h6 := C63_authentication_statements he (answer_of_faulty hs)
      have h5 := (executed_mono hp).sublist.count_le j
      have : (executed sched).count 2 = 0 ∧ (executed sched).count 3 = 5 := by decide
      rcases hjs with rfl | rfl | rfl
      · omega
      · omega
      · exact hj rfl
    · have := hp.subset hs
      rcases hjs with rfl | rfl | rfl <;> exact absurd this (by decide)

/-- The first was refused. -/
example : faultyAnswer Task.step app reqs sched 3 ≠ some success := fun h => by
  have := C63_authentication_statements (reqs := reqs) (i := 3) rfl (answer_of_faulty h)
  exact absurd this (by decide)

example : ∃ r, faultyAnswer Task.step app reqs sched 3 = some r := C73_answered (by decide)

/-- The request that failed after the commit was answered with status 500, and its challenge is
in the table. -/
example : faultyAnswer Task.step app reqs (fine [0, 0, 0] ++ [(5, .no), (5, .after)]) 5 =
      some (.crash operationalError) ∧
    (serveFaulty Task.step app reqs (fine [0, 0, 0] ++ [(5, .no), (5, .after)])).db.challenges.length = 2 :=
  ⟨rfl, rfl⟩

example : ∃ n c name pre j k cdj raw sig handle,
    Submits app (formOf "1" (authCredential 2 challenge1) "ada") n c name ∧
    NotYet (faultyAnswer Task.step app reqs) sched 4 pre ∧
    ToRegister app (reqs j) c.rawId name k ∧ Succeeded (faultyAnswer Task.step app reqs) pre j ∧
    c.response = .assertion cdj raw sig handle ∧ SignedBy app.env k sig (raw ++ app.env.sha256 cdj) :=
  C73_login Demo.codec (now := 9500) rfl again

example : ∃ pre j ch t name' cdj d text, NotYet (faultyAnswer Task.step app reqs) sched 4 pre ∧
    ToChallenge (reqs j) ch t name' ∧
    (IssuedBy (faultyAnswer Task.step app reqs) reqs pre j 1 ch t name' ∨ (j, .after) ∈ pre) ∧
    9500 - t ≤ 60000 ∧
    ((∃ ob, (authCredential 2 challenge1).response = .attestation cdj ob) ∨
      ∃ raw sig handle, (authCredential 2 challenge1).response = .assertion cdj raw sig handle) ∧
    ClientJson app.env cdj d ∧ Lookup d (.str "challenge") (.str text) ∧ Base64UrlText text ch :=
  C73_fresh_challenge (Or.inr rfl) (form1 _ _) again

example : "ada" = "ada" ∧ ∃ a pre j' ch t name'', acts a ∧
    Approves app.env a (authCredential 2 challenge1) ch ∧
    NotYet (faultyAnswer Task.step app reqs) sched 4 pre ∧ ToChallenge (reqs j') ch t name'' ∧
    (IssuedBy (faultyAnswer Task.step app reqs) reqs pre j' 1 ch t name'' ∨ (j', .after) ∈ pre) ∧
    9500 - t ≤ 60000 :=
  C73_approved (app := app) Demo.codec Demo.json Threads.holder
    (registered (by decide) (by decide) (by decide)) rfl again (form1 _ _)

example : ∃ n c name cdj ob o raw d text, Submits app (formOf "1" (regCredential challenge1) "ada") n c name ∧
    c.response = .attestation cdj ob ∧
    ClientJson app.env cdj d ∧ Lookup d (.str "type") (.str "webauthn.create") ∧
    Lookup d (.str "origin") (.str text) ∧ OriginOf app.env text ⟨"http", "localhost:5000", 5000⟩ ∧
    AttObjOf app.env ob o raw ∧ RpHashOk app.env raw "localhost" ∧ FlagSet raw 0 := by
  obtain ⟨_, _, _, _, _, _, _, _, _, -, h, -⟩ := registered (s := sched) (by decide) (by decide) (by decide)
  exact C73_registration_scope (i := 1) (now := 5000) rfl h

example : ∃ n c name cdj raw sig handle d text,
    Submits app (formOf "1" (authCredential 2 challenge1) "ada") n c name ∧
    c.response = .assertion cdj raw sig handle ∧
    ClientJson app.env cdj d ∧ Lookup d (.str "type") (.str "webauthn.get") ∧
    Lookup d (.str "origin") (.str text) ∧ OriginOf app.env text ⟨"http", "localhost:5000", 5000⟩ ∧
    RpHashOk app.env raw "localhost" ∧ FlagSet raw 0 :=
  C73_authentication_scope (app := app) (reqs := reqs) (i := 4) (now := 9500) rfl again

/-- The registration and the challenge of Ada are nobody else's. -/
example {j : Nat} {name : String} {k : CPK}
    (h : RegisteredBy (faultyAnswer Task.step app reqs) app reqs sched j Demo.credId name k) : 1 = j :=
  C73_registered_once (registered (by decide) (by decide) (by decide)) h

example {j : Nat} {ch : Bytes} {t : Int} {name : String}
    (h : IssuedBy (faultyAnswer Task.step app reqs) reqs sched j 1 ch t name) : 0 = j :=
  C73_issued_once (issued (by decide) (by decide)) h (Or.inl rfl)

/-- The login 2 fails at its commit, and Ada logs in with her next approval (an instance of
`C73_lockout`). -/
example : faultyAnswer Task.step app reqs'
    (fine base ++ fine [2, 2, 3, 2, 3, 2, 2] ++ [(2, .before)] ++ fine [3, 3, 3, 3]) 3 = some success := by
  have eq : ∀ i, i ∈ base → faultyAnswer Task.step app reqs' (fine base) i = answer app reqs' base i := by
    intro i hi
    exact (spared_answer halts_step (spared (by decide +revert))).trans rfl
  refine C73_lockout (app := app) Demo.codec Demo.json (pre := fine base) (j := 0) (j' := 1)
    (c := authCredential 2 challenge1) (cdj := clientData "webauthn.get" challenge1)
    (raw := authRaw 2) (sig := signature 2 challenge1) (handle := some handle1)
    (ad := authAd 2) (k := Demo.key) (now := 9500) (t := 0) (by decide) ?_ (by decide) ?_ rfl
    (by decide) (spared (by decide)) (by decide) (form1 _ _) rfl
    (clientData_text _ _) (C38_base64url_encoding _).1 ?_ (authRaw_enc 2) ?_ ?_
    (signature_ok 2 challenge1) holder' ?_ ?_
  · obtain ⟨⟨key, v, h1⟩, h2⟩ := issued0'
    exact ⟨⟨key, v, (eq 0 (by decide)).trans h1⟩, h2⟩
  · obtain ⟨f, t, n, c, cdj, ob, o, raw, acd, h1, h2, h3⟩ := registered1'
    exact ⟨f, t, n, c, cdj, ob, o, raw, acd, h1, (eq 1 (by decide)).trans h2, h3⟩
  · intro h hh
    obtain rfl := Option.some.inj hh
    refine ⟨⟨1, "ada", handle1⟩, ?_, rfl, rfl⟩
    rw [db_eq', ← (serveAll_congr (reqs'_eq (by decide))).1]
    exact ada
  · exact rpHash_enc (authRaw_enc 2) rfl
  · exact Demo.flagSet_enc (authRaw_enc 2) (by decide)
  · rintro a (rfl | rfl) hne
    · exact ⟨1, authRaw_counter 1, by decide⟩
    · simp [approval] at hne
  · intro j f' t' n' c' name' cdj' sig' handle' hj hi hf hc
    rw [reqs'] at hi
    split_ifs at hi
    match j with
    | 2 =>
      simp only [reqs, e4, Event.authenticationResponse.injEq] at hi
      obtain ⟨rfl, -⟩ := hi
      obtain ⟨-, rfl, -⟩ := submits_unique hf (form1 _ _)
      simp only [authCredential, Response.assertion.injEq] at hc
      exact authRaw_ne (by decide) hc.2.1
    | 3 => exact hj rfl
    | 4 => contradiction
    | 0 => simp [reqs, e1] at hi
    | 1 => simp [reqs, e3] at hi
    | 5 | 6 | 7 => simp [reqs] at hi
    | n + 8 => simp [reqs] at hi

/-- Ada, whose request 5 failed, asks for another registration (an instance of
`C73_registration_request_known`). -/
example : ∃ n, IssuedBy (faultyAnswer Task.step app reqs) reqs (start ++ fine [7, 7]) 7 n challenge4 30
    "ada" := by
  refine C73_registration_request_known (pre := start) (j := 0) ⟨_, rfl⟩
    (issued (by decide) (by decide)) (hd := handle2) rfl (by decide) (spared (by decide)) (by decide) ?_
  intro j t' name' hj h
  have h1 : challenge1 ≠ challenge4 := by decide
  have h2 : challenge2 ≠ challenge4 := by decide
  have h3 : challenge3 ≠ challenge4 := by decide
  match j with
  | 0 => simp [ToChallenge, reqs, e1, h1] at h
  | 1 => simp [ToChallenge, reqs, e3] at h
  | 2 => simp [ToChallenge, reqs, e4] at h
  | 3 | 4 => simp [ToChallenge, reqs, e5] at h
  | 5 => simp [ToChallenge, reqs, h2] at h
  | 6 => simp [ToChallenge, reqs, h3] at h
  | 7 => exact hj rfl
  | n + 8 => simp [ToChallenge, reqs] at h

/-- The request 0 fails after it has added the user; the request 5 is answered (an instance of
`C73_repaired_registration_request`). -/
example : ∃ n, IssuedBy (faultyAnswer Task.atomicStep app reqs) reqs
    ([(0, .no), (0, .after)] ++ fine [5, 5, 5]) 5 n challenge2 10 "ada" := by
  refine C73_repaired_registration_request (hd := handle2) rfl (spared (by decide)) (by decide) ?_ ?_
  · intro j name' hd' ch' t' hj hne hr
    have : j = 0 := by
      have : ∀ j ∈ List.map Prod.fst ([(0, Fault.no), (0, .after)] ++ fine [5, 5, 5]), j ≠ 5 → j = 0 := by
        decide
      exact this j hj hne
    subst this
    simp only [reqs, e1, Event.registrationRequest.injEq] at hr
    rw [← hr.2.1]
    decide
  · intro j t' name' hj h
    exact hj (draws2 h)

theorem atomic_registered : RegisteredBy (faultyAnswer Task.atomicStep app reqs) app reqs sched 1
    Demo.credId "ada" Demo.key := by
  obtain ⟨f, t, n, c, cdj, ob, o, raw, acd, h1, h2, h3⟩ :=
    atomic_registered1 (sched := executed sched) (by decide) (by decide)
  exact ⟨f, t, n, c, cdj, ob, o, raw, acd, h1,
    (atomic_spared_eq (by decide)).trans h2, h3⟩

example : OneEach app.env acts (LoginBy (faultyAnswer Task.atomicStep app reqs) app reqs sched)
    Demo.credId :=
  C73_repaired_one_each Demo.codec Demo.json Threads.holder atomic_registered

end Faults

end WebAuthn.Flask
