import Verif.Props.FlaskAtomic
import Verif.Props.PhishingDemo

/-!
# Concrete runs of the application repaired for overlapping requests

The requests are those of `Verif/Props/FlaskThreadsDemo.lean`.
-/

namespace WebAuthn.Flask

open WebAuthn WebAuthn.Spec WebAuthn.Props

namespace Threads

open Run

theorem atomic_issued0 : IssuedBy (atomicAnswer app reqs) reqs [0, 0, 0] 0 1 challenge1 0 "ada" := by
  obtain ⟨v, hv, -⟩ := creation_reply 1 { name := "ada", id := handle1, displayName := "ada" } challenge1
  refine ⟨⟨"creationOptions", v, ?_⟩, Or.inl ⟨handle1, rfl⟩⟩
  rw [← hv]
  rfl

theorem atomic_issued0_mono {sched : List Nat} (hp : [0, 0, 0] <+: sched) :
    IssuedBy (atomicAnswer app reqs) reqs sched 0 1 challenge1 0 "ada" := by
  obtain ⟨⟨key, v, h⟩, h'⟩ := atomic_issued0
  exact ⟨⟨key, v, atomicAnswer_mono hp h⟩, h'⟩

/-- The honest registration succeeds, whatever else is in progress (an instance of
`C63_repaired_registration`). -/
theorem atomic_answer1 {sched : List Nat} (hp : [0, 0, 0] <+: sched) (hc : 4 ≤ sched.count 1) :
    atomicAnswer app reqs sched 1 = some success := by
  refine C63_repaired_registration (app := app) Demo.codec Demo.json (pre := [0, 0, 0]) (j := 0)
    (c := regCredential challenge1)
    (cdj := clientData "webauthn.create" challenge1) (ob := attObj) (acd := Demo.attested)
    (k := Demo.key) hp atomic_issued0 ?_ rfl ?_ hc (form1 _ _) rfl (clientData_text _ _)
    (C38_base64url_encoding _).1 attObj_enc regRaw_enc ?_ ?_ storedKey_eq ?_ ?_ ?_
  · decide
  · decide
  · rfl
  · rfl
  · exact rpHash_enc regRaw_enc rfl
  · exact Demo.flagSet_enc regRaw_enc (by decide)
  · intro p j name k hn h
    have h1 : j = 1 := only_registration (kept_of_registered h)
    subst h1
    obtain ⟨_, _, _, _, _, _, _, _, _, -, h, -⟩ := h
    rw [hn.2] at h
    cases h

theorem atomic_registered1 {sched : List Nat} (hp : [0, 0, 0] <+: sched) (hc : 4 ≤ sched.count 1) :
    RegisteredBy (atomicAnswer app reqs) app reqs sched 1 Demo.credId "ada" Demo.key :=
  ⟨_, _, _, regCredential challenge1, _, _, ⟨regAd, .NONE, .none⟩, regRaw, Demo.attested, rfl,
    atomic_answer1 hp hc, form1 _ _, rfl, rfl, by
      obtain ⟨d, h1, h2, h3, h4, h5⟩ := attObj_enc
      have := (Demo.codec).roundTrip h4 h5 []
      rw [List.append_nil] at this
      exact ⟨d, [], [], this, h3, encodedAuthData_of Demo.codec regRaw_enc, h1, h2, rfl, rfl⟩,
    rfl, rfl⟩

theorem atomic_ada : (⟨1, "ada", handle1⟩ : User) ∈ (serveAtomic app reqs base).db.users := by
  have h := serveAll_grows (app := app) (reqs := reqs) (keptSched_prefix (app := app) (reqs := reqs)
    (pre := [0, 0, 0]) (sched := base) (by decide))
  rw [(same_server app reqs [0, 0, 0]).1, (same_server app reqs base).1] at h
  refine h.user ?_
  rw [show (serveAtomic app reqs [0, 0, 0]).db.users = [⟨1, "ada", handle1⟩] from rfl]
  simp

theorem atomic_logins {p : List Nat} {j : Nat} {c : Credential}
    (h : LoginBy (atomicAnswer app reqs) app reqs p c j) : (j = 2 ∨ j = 3 ∨ j = 4) ∧ 6 ≤ p.count j := by
  obtain ⟨f, t, _, _, h, hs, -⟩ := h
  refine ⟨?_, C63_repaired_authentication_statements h hs⟩
  match j with
  | 2 => exact Or.inl rfl
  | 3 => exact Or.inr (Or.inl rfl)
  | 4 => exact Or.inr (Or.inr rfl)
  | 0 | 1 | 5 | 6 | 7 => cases h
  | n + 8 => cases h

/-- A login of Ada succeeds, if those that have succeeded before had smaller counters (an
instance of `C63_repaired_authentication`). -/
theorem atomic_login {sched : List Nat} {i : Nat} (hi : i = 2 ∨ i = 3 ∨ i = 4) (hp : base <+: sched)
    (hc : 6 ≤ sched.count i)
    (hcounter : ∀ p j c m, NotYet (atomicAnswer app reqs) sched i p →
      LoginBy (atomicAnswer app reqs) app reqs p c j → HasCounter c m → m < (if i = 2 then 1 else 2)) :
    atomicAnswer app reqs sched i = some success := by
  obtain ⟨n, now, hn, ht, hreq⟩ := req_of hi
  refine C63_repaired_authentication (app := app) Demo.codec Demo.json (pre := base) (j := 0) (j' := 1)
    (c := authCredential n challenge1) (cdj := clientData "webauthn.get" challenge1)
    (raw := authRaw n) (sig := signature n challenge1) (handle := some handle1) (ad := authAd n)
    (k := Demo.key) hp (atomic_issued0_mono (by decide)) ht (atomic_registered1 (by decide) (by decide))
    hreq ?_ hc (form1 _ _) rfl (clientData_text _ _) (C38_base64url_encoding _).1 ?_ (authRaw_enc n) ?_ ?_
    (signature_ok n challenge1) ?_
  · rcases hi with rfl | rfl | rfl <;> decide
  · intro h hh
    obtain rfl := Option.some.inj hh
    exact ⟨_, atomic_ada, rfl, rfl⟩
  · exact rpHash_enc (authRaw_enc n) rfl
  · exact Demo.flagSet_enc (authRaw_enc n) (show Nat.testBit 1 0 = true by decide)
  · intro p j c m h1 h2 _ h4
    have := hcounter p j c m h1 h2 h4
    show m < n.toNat
    rw [hn]
    exact this

/-- The login 3, whose response 4 repeats in the meantime, succeeds. -/
theorem atomic3 : atomicAnswer app reqs sched1 3 = some success := by
  refine atomic_login (Or.inr (Or.inl rfl)) (by decide) (by decide) fun p j c m h1 h2 h3 => ?_
  obtain ⟨hj, h6⟩ := atomic_logins h2
  have hp := (List.mem_inits _ _).mpr h1.1
  have h30 : p.count 3 < 6 := by
    by_contra h
    obtain ⟨r, hr⟩ := C63_repaired_answered (app := app) (reqs := reqs) (i := 3) (sched := p) (by omega)
    rw [h1.2] at hr
    cases hr
  have : ∀ p ∈ sched1.inits, p.count 3 < 6 → p.count 2 < 6 ∧ p.count 4 < 6 := by decide
  have := this p hp h30
  rcases hj with rfl | rfl | rfl <;> omega

theorem atomic_login3 : LoginBy (atomicAnswer app reqs) app reqs sched1 (authCredential 2 challenge1) 3 :=
  ⟨_, _, _, _, rfl, atomic3, form1 _ _⟩

/-- The login 4 does not (an instance of `C63_repaired_no_replay`). -/
theorem atomic4 : atomicAnswer app reqs sched1 4 ≠ some success := fun h =>
  C63_repaired_no_replay (i := 3) (j := 4) (by decide) atomic_login3
    (⟨_, _, _, _, rfl, h, form1 _ _⟩ :
      LoginBy (atomicAnswer app reqs) app reqs sched1 (authCredential 2 challenge1) 4) ⟨rfl, rfl⟩

/-- 2 reads the counter, then 3 does; 2 writes it, then 3 does. -/
def sched5 : List Nat := base ++ [2, 2, 2, 3, 3, 3, 2, 2, 2, 3, 3, 3]

theorem atomic5 : atomicAnswer app reqs sched5 2 = some success ∧
    atomicAnswer app reqs sched5 3 = some success := by
  constructor
  · refine atomic_login (Or.inl rfl) (by decide) (by decide) fun p j c m h1 h2 h3 => ?_
    obtain ⟨hj, h6⟩ := atomic_logins h2
    have hp := (List.mem_inits _ _).mpr h1.1
    have h30 : p.count 2 < 6 := by
      by_contra h
      obtain ⟨r, hr⟩ := C63_repaired_answered (app := app) (reqs := reqs) (i := 2) (sched := p) (by omega)
      rw [h1.2] at hr
      cases hr
    have : ∀ p ∈ sched5.inits, p.count 2 < 6 → p.count 3 < 6 ∧ p.count 4 < 6 := by decide
    have := this p hp h30
    rcases hj with rfl | rfl | rfl <;> omega
  · refine atomic_login (Or.inr (Or.inl rfl)) (by decide) (by decide) fun p j c m h1 h2 h3 => ?_
    obtain ⟨hj, h6⟩ := atomic_logins h2
    have hp := (List.mem_inits _ _).mpr h1.1
    have : ∀ p ∈ sched5.inits, p.count 4 = 0 := by decide
    have := this p hp
    rcases hj with rfl | rfl | rfl
    · obtain ⟨f, t, n, name, e1, -, e2⟩ := h2
      cases e1
      obtain ⟨-, rfl, -⟩ := submits_unique e2 (Run.form1 _ _)
      rw [hasCounter_unique h3 (Run.counter_of 1 Run.challenge1)]
      decide
    · obtain ⟨_, _, _, _, -, h, -⟩ := h2
      rw [h1.2] at h
      cases h
    · omega

end Threads

open Threads

/-! ## The theorems on the runs -/

example : ∃ r, atomicAnswer Run.app Threads.reqs sched1 4 = some r ∧ r ≠ success := by
  obtain ⟨r, h⟩ := C63_repaired_answered (app := Run.app) (reqs := Threads.reqs) (sched := sched1) (i := 4)
    (by decide)
  exact ⟨r, h, fun e => atomic4 (e ▸ h)⟩

example : 6 ≤ sched1.count 3 := C63_repaired_authentication_statements (reqs := Threads.reqs) rfl atomic3

example : ∃ n c name pre j k cdj raw sig handle,
    Submits Run.app (formOf "1" (Run.authCredential 2 Run.challenge1) "ada") n c name ∧
    NotYet (atomicAnswer Run.app Threads.reqs) sched1 3 pre ∧
    RegisteredBy (atomicAnswer Run.app Threads.reqs) Run.app Threads.reqs pre j c.rawId name k ∧
    c.response = .assertion cdj raw sig handle ∧
    SignedBy Demo.env k sig (raw ++ Demo.env.sha256 cdj) :=
  C63_repaired_login (app := Run.app) Demo.codec rfl atomic3

example : ∃ pre j ch t name' cdj d text, NotYet (atomicAnswer Run.app Threads.reqs) sched1 3 pre ∧
    IssuedBy (atomicAnswer Run.app Threads.reqs) Threads.reqs pre j 1 ch t name' ∧ 9500 - t ≤ 60000 ∧
    ((∃ ob, (Run.authCredential 2 Run.challenge1).response = .attestation cdj ob) ∨
      ∃ raw sig handle, (Run.authCredential 2 Run.challenge1).response = .assertion cdj raw sig handle) ∧
    ClientJson Demo.env cdj d ∧ Lookup d (.str "challenge") (.str text) ∧ Base64UrlText text ch :=
  C63_repaired_fresh_challenge (app := Run.app) (Or.inr rfl) (Run.form1 _ _) atomic3

example : ∃ n c name cdj ob o raw d text,
    Submits Run.app (formOf "1" (Run.regCredential Run.challenge1) "ada") n c name ∧
    c.response = .attestation cdj ob ∧ ClientJson Demo.env cdj d ∧
    Lookup d (.str "type") (.str "webauthn.create") ∧ Lookup d (.str "origin") (.str text) ∧
    OriginOf Demo.env text ⟨"http", "localhost:5000", 5000⟩ ∧
    AttObjOf Demo.env ob o raw ∧ RpHashOk Demo.env raw "localhost" ∧ FlagSet raw 0 :=
  C63_repaired_registration_scope (app := Run.app) (reqs := Threads.reqs) (i := 1) (sched := base) rfl
    (atomic_answer1 (by decide) (by decide))

example : ∃ n c name cdj raw sig handle d text,
    Submits Run.app (formOf "1" (Run.authCredential 2 Run.challenge1) "ada") n c name ∧
    c.response = .assertion cdj raw sig handle ∧ ClientJson Demo.env cdj d ∧
    Lookup d (.str "type") (.str "webauthn.get") ∧ Lookup d (.str "origin") (.str text) ∧
    OriginOf Demo.env text ⟨"http", "localhost:5000", 5000⟩ ∧
    RpHashOk Demo.env raw "localhost" ∧ FlagSet raw 0 :=
  C63_repaired_authentication_scope (app := Run.app) (reqs := Threads.reqs) (i := 3) (sched := sched1)
    rfl atomic3

/-- Nobody else registers the credential. -/
example (j : Nat) (name : String) (k : CPK)
    (h : RegisteredBy (atomicAnswer Run.app Threads.reqs) Run.app Threads.reqs base j Demo.credId name k) :
    j = 1 :=
  C63_repaired_registered_once h (atomic_registered1 (by decide) (by decide))

/-- No two requests get the challenge 1. -/
example (j : Nat) (ch : Bytes) (t : Int) (name : String)
    (h : IssuedBy (atomicAnswer Run.app Threads.reqs) Threads.reqs base j 1 ch t name) : j = 0 :=
  C63_repaired_issued_once h (atomic_issued0_mono (by decide)) (Or.inl rfl)

/-- The counters of the two overlapping logins. -/
example : (1 : UInt8).toNat ≠ (2 : UInt8).toNat :=
  C63_repaired_distinct_counters (app := Run.app) (reqs := Threads.reqs) (sched := sched5) (i := 2) (j := 3)
    (by decide) ⟨_, _, _, _, rfl, atomic5.1, Run.form1 _ _⟩ (Run.counter_of 1 Run.challenge1)
    ⟨_, _, _, _, rfl, atomic5.2, Run.form1 _ _⟩ (Run.counter_of 2 Run.challenge1) rfl

example : (1 : UInt8).toNat < (2 : UInt8).toNat := by
  have h2 : atomicAnswer Run.app Threads.reqs (base ++ [2, 2, 2, 3, 3, 3, 2, 2, 2]) 2 = some success := by
    obtain ⟨r, hr⟩ := C63_repaired_answered (app := Run.app) (reqs := Threads.reqs) (i := 2)
      (sched := base ++ [2, 2, 2, 3, 3, 3, 2, 2, 2]) (by decide)
    have := atomicAnswer_mono (sched := sched5) (by decide) hr
    rw [atomic5.1] at this
    rw [hr, this]
  have h3 : atomicAnswer Run.app Threads.reqs (base ++ [2, 2, 2, 3, 3, 3, 2, 2, 2]) 3 = none := by
    cases h : atomicAnswer Run.app Threads.reqs (base ++ [2, 2, 2, 3, 3, 3, 2, 2, 2]) 3 with
    | none => rfl
    | some r =>
      have e := atomicAnswer_mono (sched := sched5) (by decide) h
      rw [atomic5.2] at e
      cases e
      have := C63_repaired_authentication_statements (reqs := Threads.reqs) rfl h
      exact absurd this (by decide)
  exact C63_repaired_counters (app := Run.app) (reqs := Threads.reqs) (sched := sched5) (i := 2) (j := 3)
    (pre := base ++ [2, 2, 2, 3, 3, 3, 2, 2, 2])
    ⟨_, _, _, _, rfl, h2, Run.form1 _ _⟩ (Run.counter_of 1 Run.challenge1) (by decide) h3
    ⟨_, _, _, _, rfl, atomic5.2, Run.form1 _ _⟩ (Run.counter_of 2 Run.challenge1) rfl

/-- Both first requests of Ada are answered: the one that the application of the
repository answers with an error, too (`C63_registration_request_refuted`). -/
example : ∃ n, IssuedBy (atomicAnswer Run.app Threads.reqs) Threads.reqs [0, 5, 0, 5, 0, 5] 5 n
    Run.challenge2 10 "ada" := by
  refine C63_repaired_registration_request (hd := Run.handle2) rfl (by decide) ?_ ?_
  · intro j name' hd' ch' t' hj hne hr
    have : j = 0 ∨ j = 5 := by simp at hj; omega
    rcases this with rfl | rfl
    · cases hr
      decide
    · exact absurd rfl hne
  · rintro j n' t' name' hne ⟨-, hj⟩
    exact hne (draws2 hj)

example : "ada" = "ada" ∧ ∃ a pre j' ch t name'', Run.acts a ∧
    Approves Demo.env a (Run.authCredential 2 Run.challenge1) ch ∧
    NotYet (atomicAnswer Run.app Threads.reqs) sched1 3 pre ∧
    IssuedBy (atomicAnswer Run.app Threads.reqs) Threads.reqs pre j' 1 ch t name'' ∧ 9500 - t ≤ 60000 :=
  C65_repaired (app := Run.app) Demo.codec Demo.json Threads.holder
    (atomic_registered1 (by decide) (by decide)) rfl atomic3 (Run.form1 _ _)

/-- The two overlapping logins of Ada have an approval each. -/
example : OneEach Demo.env Run.acts
    (LoginBy (atomicAnswer Run.app Threads.reqs) Run.app Threads.reqs sched5) Demo.credId :=
  C67_repaired (app := Run.app) Demo.codec Demo.json Threads.holder
    (atomic_registered1 (by decide) (by decide))

end WebAuthn.Flask
