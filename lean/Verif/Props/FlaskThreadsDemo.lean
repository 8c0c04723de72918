import Verif.Props.FlaskThreadsCounter
import Verif.Props.FlaskDemo
import Mathlib.Data.List.Infix

/-!
# Concrete runs of the example application with requests in progress at the same time

They show that the hypotheses of the theorems can be met, and what goes wrong when
requests overlap (C63).
-/

namespace WebAuthn.Flask

open WebAuthn WebAuthn.Spec WebAuthn.Props

namespace Threads

open Run

def challenge3 : Bytes := List.replicate 64 0xa3
def challenge4 : Bytes := List.replicate 64 0xa4

/-- 0: Ada asks for a registration; 1: Ada registers; 2: Ada authenticates with the
counter 1; 3 and 4: with the counter 2, the same response; 5: Ada asks for a
registration too; 6: Ada asks for an authentication; 7: Ada asks for another
registration. -/
def reqs : Nat → Event
  | 0 => e1
  | 1 => e3
  | 2 => e4
  | 3 => e5
  | 4 => e5
  | 5 => .registrationRequest (some "ada") handle2 challenge2 10
  | 6 => .authenticationRequest (some "ada") challenge3 20
  | 7 => .registrationRequest (some "ada") handle2 challenge4 30
  | _ => .registrationRequest none [] [] 0

/-- The registration of Ada. -/
def base : List Nat := [0, 0, 0, 1, 1, 1, 1]

theorem issued0 : IssuedAt app reqs [0, 0, 0] 0 1 challenge1 0 "ada" := by
  obtain ⟨v, hv, -⟩ := creation_reply 1 { name := "ada", id := handle1, displayName := "ada" } challenge1
  refine ⟨⟨"creationOptions", v, ?_⟩, Or.inl ⟨handle1, rfl⟩⟩
  rw [← hv]
  rfl

theorem only_registration {p : List Nat} {j : Nat} {id : Bytes} {name : String} {k : CPK}
    (h : RegisteredAt app reqs p j id name k) : j = 1 := by
  obtain ⟨f, t, _, _, _, _, _, _, _, h, -⟩ := h
  match j with
  | 1 => rfl
  | 0 | 2 | 3 | 4 | 5 | 6 | 7 => cases h
  | n + 8 => cases h

theorem only_logins {p : List Nat} {j : Nat} {id : Bytes} {m : Int}
    (h : AuthenticatedAt app reqs p j id m) : (j = 2 ∨ j = 3 ∨ j = 4) ∧ 6 ≤ p.count j := by
  obtain ⟨f, t, _, _, _, _, h, hs, -⟩ := h
  refine ⟨?_, C63_authentication_statements h hs⟩
  match j with
  | 2 => exact Or.inl rfl
  | 3 => exact Or.inr (Or.inl rfl)
  | 4 => exact Or.inr (Or.inr rfl)
  | 0 | 1 | 5 | 6 | 7 => cases h
  | n + 8 => cases h

theorem draws2 {j : Nat} {t : Int} {name : String}
    (h : (∃ h, reqs j = .registrationRequest (some name) h challenge2 t) ∨
      reqs j = .authenticationRequest (some name) challenge2 t) : j = 5 := by
  have h1 : challenge1 ≠ challenge2 := by decide
  have h3 : challenge3 ≠ challenge2 := by decide
  have h4 : challenge4 ≠ challenge2 := by decide
  match j with
  | 5 => rfl
  | 0 => simp [reqs, e1, h1] at h
  | 1 => simp [reqs, e3] at h
  | 2 => simp [reqs, e4] at h
  | 3 | 4 => simp [reqs, e5] at h
  | 6 => simp [reqs, h3] at h
  | 7 => simp [reqs, h4] at h
  | n + 8 => simp [reqs] at h

/-- The honest registration succeeds, whatever else is in progress (an instance of
`C63_registration`). -/
theorem answer1 {sched : List Nat} (hp : [0, 0, 0] <+: sched) (hc : 4 ≤ sched.count 1) :
    answer app reqs sched 1 = some success := by
  refine C63_registration (app := app) Demo.codec Demo.json (pre := [0, 0, 0]) (j := 0)
    (c := regCredential challenge1)
    (cdj := clientData "webauthn.create" challenge1) (ob := attObj) (acd := Demo.attested)
    (k := Demo.key) hp issued0 ?_ rfl ?_ hc (form1 _ _) rfl (clientData_text _ _)
    (C38_base64url_encoding _).1 attObj_enc regRaw_enc ?_ ?_ storedKey_eq ?_ ?_ ?_
  · decide
  · decide
  · rfl
  · rfl
  · exact rpHash_enc regRaw_enc rfl
  · exact Demo.flagSet_enc regRaw_enc (by decide)
  · exact fun p j name k _ _ hj h => hj (only_registration h)

theorem registered1 {sched : List Nat} (hp : [0, 0, 0] <+: sched) (hc : 4 ≤ sched.count 1) :
    RegisteredAt app reqs sched 1 Demo.credId "ada" Demo.key :=
  ⟨_, _, _, regCredential challenge1, _, _, ⟨regAd, .NONE, .none⟩, regRaw, Demo.attested, rfl,
    answer1 hp hc, form1 _ _, rfl, rfl, by
      obtain ⟨d, h1, h2, h3, h4, h5⟩ := attObj_enc
      have := (Demo.codec).roundTrip h4 h5 []
      rw [List.append_nil] at this
      exact ⟨d, [], [], this, h3, encodedAuthData_of Demo.codec regRaw_enc, h1, h2, rfl, rfl⟩,
    rfl, rfl⟩

theorem ada : (⟨1, "ada", handle1⟩ : User) ∈ (serveAll app reqs base).db.users := by
  have h := serveAll_grows (app := app) (reqs := reqs) (pre := [0, 0, 0]) (sched := base) (by decide)
  refine h.user ?_
  rw [show (serveAll app reqs [0, 0, 0]).db.users = [⟨1, "ada", handle1⟩] from rfl]
  simp

theorem req_of {i : Nat} (hi : i = 2 ∨ i = 3 ∨ i = 4) : ∃ n now, n.toNat = (if i = 2 then 1 else 2) ∧
    now - 0 ≤ 60000 ∧
    reqs i = .authenticationResponse (formOf "1" (authCredential n challenge1) "ada") now := by
  rcases hi with rfl | rfl | rfl
  · exact ⟨1, 9000, by decide, by decide, rfl⟩
  · exact ⟨2, 9500, by decide, by decide, rfl⟩
  · exact ⟨2, 9500, by decide, by decide, rfl⟩

/-- A login of Ada succeeds, if the stored counter is smaller. -/
theorem login {sched : List Nat} {i : Nat} (hi : i = 2 ∨ i = 3 ∨ i = 4) (hp : base <+: sched)
    (hc : 6 ≤ sched.count i)
    (hcounter : ∀ p, p ++ [i] <+: sched → p.count i = 2 →
      ∀ r ∈ (serveAll app reqs p).db.credentials, r.id = Demo.credId →
        ∀ m, r.count = some m → m < (if i = 2 then 1 else 2)) :
    answer app reqs sched i = some success := by
  obtain ⟨n, now, hn, ht, hreq⟩ := req_of hi
  refine authentication_live (app := app) Demo.codec Demo.json (pre := base) (j := 0) (j' := 1)
    (c := authCredential n challenge1) (cdj := clientData "webauthn.get" challenge1)
    (raw := authRaw n) (sig := signature n challenge1) (handle := some handle1) (ad := authAd n)
    (k := Demo.key) hp (issuedAt_mono (by decide) issued0) ht (registered1 (by decide) (by decide)) hreq
    ?_ hc (form1 _ _) rfl (clientData_text _ _) (C38_base64url_encoding _).1 ?_ (authRaw_enc n) ?_ ?_
    (signature_ok n challenge1) ?_
  · rcases hi with rfl | rfl | rfl <;> decide
  · intro h hh
    obtain rfl := Option.some.inj hh
    exact ⟨_, ada, rfl, rfl⟩
  · exact rpHash_enc (authRaw_enc n) rfl
  · exact Demo.flagSet_enc (authRaw_enc n) (show Nat.testBit 1 0 = true by decide)
  · intro p h1 h2 r h3 h4 m h5
    have := hcounter p h1 h2 r h3 h4 m h5
    show m < (n.toNat : Int)
    rw [hn]
    split <;> simp_all

/-- A login succeeds when no other has been answered before it reads the counter. -/
theorem login_first {sched : List Nat} {i : Nat} (hi : i = 2 ∨ i = 3 ∨ i = 4) (hp : base <+: sched)
    (hc : 6 ≤ sched.count i)
    (hfirst : ∀ p ∈ sched.inits, p.count i = 2 → p.count 2 < 6 ∧ p.count 3 < 6 ∧ p.count 4 < 6) :
    answer app reqs sched i = some success := by
  refine login hi hp hc fun p h1 h2 r h3 h4 m h5 => ?_
  obtain ⟨pre, j, h6, h7⟩ := (server_inv app reqs p).counts r h3 m h5
  obtain ⟨hj, hj6⟩ := only_logins (authenticatedAt_mono h6 h7)
  have := hfirst p ((List.mem_inits _ _).mpr ((List.prefix_append _ _).trans h1)) h2
  rcases hj with rfl | rfl | rfl <;> omega

/-! ## The same response at the same time -/

/-- 3 and 4 read the counter, then both write it. -/
def sched1 : List Nat := base ++ [3, 3, 3, 4, 4, 4, 3, 3, 3, 4, 4, 4]

theorem both : answer app reqs sched1 3 = some success ∧ answer app reqs sched1 4 = some success :=
  ⟨login_first (Or.inr (Or.inl rfl)) (by decide) (by decide) (by decide),
    login_first (Or.inr (Or.inr rfl)) (by decide) (by decide) (by decide)⟩

/-! ## A counter goes down -/

/-- 2 reads the counter, 3 logs in, 2 writes the counter. -/
def sched2 : List Nat := base ++ [2, 2, 2, 3, 3, 3, 3, 3, 3, 2, 2]

theorem two : answer app reqs (sched2 ++ [2]) 2 = some success ∧
    answer app reqs (sched2 ++ [2]) 3 = some success :=
  ⟨login_first (Or.inl rfl) (by decide) (by decide) (by decide),
    login_first (Or.inr (Or.inl rfl)) (by decide) (by decide) (by decide)⟩

theorem not_yet : answer app reqs sched2 2 = none := by
  obtain ⟨p, h1, h2, h3⟩ := served_at two.1 (Or.inl rfl)
  have h6 := C63_authentication_statements (reqs := reqs) (i := 2) rfl h3
  rcases List.prefix_concat_iff.mp h1 with e | h
  · rw [← List.append_inj_left' e rfl]
    exact h2
  · have := h.sublist.count_le 2
    have h5 : sched2.count 2 = 5 := by decide
    omega

/-- The stored counter is 1, although the login with the counter 2 has succeeded. -/
theorem down : ∀ q, q <+: [4, 4] →
    (∃ r ∈ (serveAll app reqs (sched2 ++ [2] ++ q)).db.credentials, r.id = Demo.credId) ∧
    ∀ r ∈ (serveAll app reqs (sched2 ++ [2] ++ q)).db.credentials, r.id = Demo.credId →
      r.count = some 1 := by
  intro q
  induction q using List.reverseRecOn with
  | nil =>
    intro _
    rw [List.append_nil]
    exact login_leaves (app := app) (reqs := reqs) (i := 2) (c := authCredential 1 challenge1) rfl
      (form1 _ _) (counter_of 1 challenge1) not_yet two.1
  | append_singleton q l ih =>
    intro hq
    obtain ⟨ih1, ih2⟩ := ih ((List.prefix_append _ _).trans hq)
    rw [← List.append_assoc]
    refine counter_stays ih1 ih2 fun m _ ha => ?_
    obtain ⟨-, h6⟩ := only_logins ha
    have hl : l = 4 := by
      have : l ∈ ([4, 4] : List Nat) := hq.subset (by simp)
      simpa using this
    subst hl
    have h1 := hq.sublist.count_le 4
    rw [List.append_assoc, List.count_append] at h6
    have h2 : (sched2 ++ [2]).count 4 = 0 := by decide
    have h3 : ([4, 4] : List Nat).count 4 = 2 := by decide
    omega

/-- Afterwards 4 repeats the response of 3. -/
def sched3 : List Nat := sched2 ++ [2] ++ [4, 4, 4, 4, 4, 4]

theorem again : answer app reqs sched3 4 = some success := by
  refine login (Or.inr (Or.inr rfl)) (by decide) (by decide) fun p h1 h2 r h3 h4 m h5 => ?_
  have hp : p = sched2 ++ [2] ++ [4, 4] := by
    have : ∀ p ∈ sched3.inits, p.count 4 = 2 → p = sched2 ++ [2] ++ [4, 4] := by decide
    exact this p ((List.mem_inits _ _).mpr ((List.prefix_append _ _).trans h1)) h2
  subst hp
  rw [(down [4, 4] (List.prefix_refl _)).2 r h3 h4] at h5
  cases h5
  decide

end Threads

open Threads

/-- No response succeeds twice. -/
def NoReplay (app : App) : Prop :=
  ∀ (reqs : Nat → Event) (sched : List Nat) i j f f' now now' n n' c c' name name', i ≠ j →
    reqs i = .authenticationResponse f now → Submits app f n c name →
    reqs j = .authenticationResponse f' now' → Submits app f' n' c' name' →
    answer app reqs sched i = some success → answer app reqs sched j = some success →
    ¬ (c.rawId = c'.rawId ∧ c.response = c'.response)

/-- C63 is false of overlapping requests: one response succeeds twice, when both
requests read the counter before either writes it. -/
theorem C63_replay_refuted : ∃ app, CodecLaws app.env ∧ JsonLaw app.env ∧ ¬ NoReplay app :=
  ⟨Run.app, Demo.codec, Demo.json, fun h =>
    h Threads.reqs sched1 3 4 _ _ _ _ _ _ _ _ _ _ (by decide) rfl (Run.form1 _ _) rfl (Run.form1 _ _)
      both.1 both.2 ⟨rfl, rfl⟩⟩

/-- Of two logins with a credential, the one that begins after the other was answered
has the greater counter. -/
def CountersGrow (app : App) : Prop :=
  ∀ (reqs : Nat → Event) (sched pre : List Nat) i j f f' now now' n n' c c' name name' k k',
    reqs i = .authenticationResponse f now → Submits app f n c name → HasCounter c k →
    reqs j = .authenticationResponse f' now' → Submits app f' n' c' name' → HasCounter c' k' →
    c.rawId = c'.rawId → pre <+: sched → answer app reqs pre i = some success → j ∉ pre →
    answer app reqs sched j = some success → k < k'

/-- C63 is false of overlapping requests: a login that overlaps another sets the stored
counter back, and then the response of the other succeeds again. -/
theorem C63_counters_refuted : ∃ app, CodecLaws app.env ∧ JsonLaw app.env ∧ ¬ CountersGrow app :=
  ⟨Run.app, Demo.codec, Demo.json, fun h =>
    absurd (h Threads.reqs sched3 (sched2 ++ [2]) 3 4 _ _ _ _ _ _ _ _ _ _ _ _ rfl (Run.form1 _ _)
      (Run.counter_of 2 Run.challenge1) rfl (Run.form1 _ _) (Run.counter_of 2 Run.challenge1) rfl
      (List.prefix_append _ _) two.2 (by decide) again) (lt_irrefl _)⟩

/-- C63 is false of overlapping requests: of two first requests for a registration
under the same name, one is answered with an error of the server, although nobody else
was given its random bytes. -/
theorem C63_registration_request_refuted : ∃ app, CodecLaws app.env ∧ JsonLaw app.env ∧
    ¬ ∀ (reqs : Nat → Event) (sched : List Nat) i name hd ch t,
      reqs i = .registrationRequest (some name) hd ch t → 3 ≤ sched.count i →
      (∀ j name' hd' ch' t', j ∈ sched → j ≠ i →
        reqs j = .registrationRequest (some name') hd' ch' t' → hd' ≠ hd) →
      (∀ j n' t' name', j ≠ i → ¬ IssuedAt app reqs sched j n' ch t' name') →
      ∃ n, IssuedAt app reqs sched i n ch t name := by
  refine ⟨Run.app, Demo.codec, Demo.json, fun h => ?_⟩
  have hcrash : answer Run.app Threads.reqs [0, 5, 0, 5, 0, 5] 5 = some (.crash integrityError) := rfl
  obtain ⟨n, ⟨key, v, hn⟩, -⟩ := h Threads.reqs [0, 5, 0, 5, 0, 5] 5 "ada" Run.handle2 Run.challenge2 10 rfl
    (by decide) (by
      intro j name' hd' ch' t' hj hne hr
      have : j = 0 ∨ j = 5 := by simp at hj; omega
      rcases this with rfl | rfl
      · cases hr
        decide
      · exact absurd rfl hne) (by
      rintro j n' t' name' hne ⟨⟨key, v, ha⟩, hj⟩
      exact hne (draws2 hj))
  rw [hcrash] at hn
  cases hn

/-! ## The theorems on the runs -/

example : ∃ r, answer Run.app Threads.reqs sched1 4 = some r := C63_answered (by decide)

/-- The login 2 after the registration, uninterrupted. -/
example : answer Run.app Threads.reqs (base ++ List.replicate 6 2) 2 =
      some (step Run.app Run.e4 (serveAll Run.app Threads.reqs base).db).1 ∧
    (serveAll Run.app Threads.reqs (base ++ List.replicate 6 2)).db =
      (step Run.app Run.e4 (serveAll Run.app Threads.reqs base).db).2 :=
  C63_uninterrupted (reqs := Threads.reqs) (by decide)

/-- The login 4 of the overlapping pair. -/
example : ∃ n c name pre j k cdj raw sig handle,
    Submits Run.app (formOf "1" (Run.authCredential 2 Run.challenge1) "ada") n c name ∧
    Before Run.app Threads.reqs sched1 4 pre ∧ RegisteredAt Run.app Threads.reqs pre j c.rawId name k ∧
    c.response = .assertion cdj raw sig handle ∧
    SignedBy Demo.env k sig (raw ++ Demo.env.sha256 cdj) :=
  C63_login (app := Run.app) Demo.codec rfl both.2

example : ∃ pre j ch t name' cdj d text, Before Run.app Threads.reqs sched1 4 pre ∧
    IssuedAt Run.app Threads.reqs pre j 1 ch t name' ∧ 9500 - t ≤ 60000 ∧
    ((∃ ob, (Run.authCredential 2 Run.challenge1).response = .attestation cdj ob) ∨
      ∃ raw sig handle, (Run.authCredential 2 Run.challenge1).response = .assertion cdj raw sig handle) ∧
    ClientJson Demo.env cdj d ∧ Lookup d (.str "challenge") (.str text) ∧ Base64UrlText text ch :=
  C63_fresh_challenge (app := Run.app) (Or.inr rfl) (Run.form1 _ _) both.2

example : ∃ n c name cdj ob o raw d text,
    Submits Run.app (formOf "1" (Run.regCredential Run.challenge1) "ada") n c name ∧
    c.response = .attestation cdj ob ∧ ClientJson Demo.env cdj d ∧
    Lookup d (.str "type") (.str "webauthn.create") ∧ Lookup d (.str "origin") (.str text) ∧
    OriginOf Demo.env text ⟨"http", "localhost:5000", 5000⟩ ∧
    AttObjOf Demo.env ob o raw ∧ RpHashOk Demo.env raw "localhost" ∧ FlagSet raw 0 :=
  C63_registration_scope (app := Run.app) (reqs := Threads.reqs) (i := 1) (sched := base) rfl
    (answer1 (by decide) (by decide))

example : ∃ n c name cdj raw sig handle d text,
    Submits Run.app (formOf "1" (Run.authCredential 2 Run.challenge1) "ada") n c name ∧
    c.response = .assertion cdj raw sig handle ∧ ClientJson Demo.env cdj d ∧
    Lookup d (.str "type") (.str "webauthn.get") ∧ Lookup d (.str "origin") (.str text) ∧
    OriginOf Demo.env text ⟨"http", "localhost:5000", 5000⟩ ∧
    RpHashOk Demo.env raw "localhost" ∧ FlagSet raw 0 :=
  C63_authentication_scope (app := Run.app) (reqs := Threads.reqs) (i := 4) (sched := sched1) rfl both.2

/-- Nobody else registers the credential. -/
example (j : Nat) (name : String) (k : CPK)
    (h : RegisteredAt Run.app Threads.reqs base j Demo.credId name k) : j = 1 :=
  C63_registered_once h (registered1 (by decide) (by decide))

/-- Ada asks for an authentication while registering. -/
theorem issued6 : ∃ n, IssuedAt Run.app Threads.reqs [0, 0, 0, 6, 1, 6, 1, 1, 6, 1] 6 n challenge3 20
    "ada" := by
  refine C63_authentication_request (pre := [0, 0, 0]) (j := 0) (by decide) issued0 rfl (by decide)
    (by decide) ?_
  rintro j n' t' name' hne ⟨-, hj⟩
  match j with
  | 6 => exact hne rfl
  | 0 => simp [Threads.reqs, Run.e1, show Run.challenge1 ≠ challenge3 by decide] at hj
  | 1 => simp [Threads.reqs, Run.e3] at hj
  | 2 => simp [Threads.reqs, Run.e4] at hj
  | 3 | 4 => simp [Threads.reqs, Run.e5] at hj
  | 5 => simp [Threads.reqs, show Run.challenge2 ≠ challenge3 by decide] at hj
  | 7 => simp [Threads.reqs, show challenge4 ≠ challenge3 by decide] at hj
  | n + 8 => simp [Threads.reqs] at hj

/-- No two requests get the challenge 1. -/
example (j : Nat) (ch : Bytes) (t : Int) (name : String)
    (h : IssuedAt Run.app Threads.reqs [0, 0, 0, 6, 1, 6, 1, 1, 6, 1] j 1 ch t name) : j = 0 :=
  C63_issued_once h (issuedAt_mono (by decide) issued0) (Or.inl rfl)

/-- Ada asks again for a registration after the race was lost: 5 is refused, then 7 is
answered. -/
example : ∃ n, IssuedAt Run.app Threads.reqs [0, 5, 0, 5, 0, 7, 7] 7 n challenge4 30 "ada" := by
  have h0 : IssuedAt Run.app Threads.reqs [0, 5, 0, 5, 0] 0 1 Run.challenge1 0 "ada" := by
    obtain ⟨v, hv, -⟩ := creation_reply 1
      { name := "ada", id := Run.handle1, displayName := "ada" } Run.challenge1
    refine ⟨⟨"creationOptions", v, ?_⟩, Or.inl ⟨Run.handle1, rfl⟩⟩
    rw [← hv]
    rfl
  refine C63_registration_request_known (pre := [0, 5, 0, 5, 0]) (j := 0) (by decide) h0 rfl (by decide)
    (by decide) ?_
  rintro j n' t' name' hne ⟨-, hj⟩
  match j with
  | 7 => exact hne rfl
  | 0 => simp [Threads.reqs, Run.e1, show Run.challenge1 ≠ challenge4 by decide] at hj
  | 1 => simp [Threads.reqs, Run.e3] at hj
  | 2 => simp [Threads.reqs, Run.e4] at hj
  | 3 | 4 => simp [Threads.reqs, Run.e5] at hj
  | 5 => simp [Threads.reqs, show Run.challenge2 ≠ challenge4 by decide] at hj
  | 6 => simp [Threads.reqs, show challenge3 ≠ challenge4 by decide] at hj
  | n + 8 => simp [Threads.reqs] at hj

/-- Ada and Bob ask for their first registration at the same time. -/
example : ∃ n, IssuedAt Run.app (fun i : Bool => if i then Run.e1 else Run.e2)
    [true, false, true, false, false, true] true n Run.challenge1 0 "ada" := by
  refine C63_registration_request_new_partial rfl (by decide) ?_ ?_
  · intro j name' hd' ch' t' _ hj hr
    cases j
    · cases hr
      exact ⟨by decide, by decide⟩
    · exact absurd rfl hj
  · rintro j n' t' name' hj ⟨-, hr⟩
    cases j
    · simp [Run.e2, show Run.challenge2 ≠ Run.challenge1 by decide] at hr
    · exact absurd rfl hj

example : 6 ≤ sched1.count 4 := C63_authentication_statements (reqs := Threads.reqs) rfl both.2

example : 4 ≤ base.count 1 :=
  C63_registration_statements (reqs := Threads.reqs) rfl (answer1 (by decide) (by decide))

/-- 2 logs in, then 3 begins to. -/
def sched4 : List Nat := base ++ [2, 2, 2, 2, 2, 2, 3, 3, 3, 3, 3, 3]

theorem login2 : answer Run.app Threads.reqs (base ++ [2, 2, 2, 2, 2, 2]) 2 = some success :=
  login_first (Or.inl rfl) (by decide) (by decide) (by decide)

theorem not_yet2 : answer Run.app Threads.reqs (base ++ [2, 2, 2, 2, 2]) 2 = none := by
  cases h : answer Run.app Threads.reqs (base ++ [2, 2, 2, 2, 2]) 2 with
  | none => rfl
  | some r =>
    have e := answer_mono (sched := base ++ [2, 2, 2, 2, 2, 2]) (by decide) h
    rw [login2] at e
    cases e
    have := C63_authentication_statements (reqs := Threads.reqs) rfl h
    exact absurd this (by decide)

theorem login3 : answer Run.app Threads.reqs sched4 3 = some success := by
  refine login (Or.inr (Or.inl rfl)) (by decide) (by decide) fun p h1 h2 r h3 h4 m h5 => ?_
  obtain ⟨pre, j, h6, h7⟩ := (server_inv Run.app Threads.reqs p).counts r h3 m h5
  obtain ⟨hj, hj6⟩ := only_logins (authenticatedAt_mono h6 h7)
  have hp : p <+: sched4 := (List.prefix_append _ _).trans h1
  have : ∀ p ∈ sched4.inits, p.count 3 = 2 → p.count 4 = 0 := by decide
  have := this p ((List.mem_inits _ _).mpr hp) h2
  rcases hj with rfl | rfl | rfl
  · obtain ⟨f, t, n, c, name, k, e1, -, e2, -, rfl, e3⟩ := h7
    cases e1
    obtain ⟨-, rfl, -⟩ := submits_unique e2 (Run.form1 _ _)
    rw [hasCounter_unique e3 (Run.counter_of 1 Run.challenge1)]
    decide
  · omega
  · omega

/-- The counters of the two. -/
example : (1 : UInt8).toNat < (2 : UInt8).toNat :=
  C63_counters_partial (app := Run.app) (reqs := Threads.reqs) (i := 2) (j := 3) (sched := sched4)
    (q := base ++ [2, 2, 2, 2, 2]) (p := base ++ [2, 2, 2, 2, 2, 2, 3, 3]) rfl (Run.form1 _ _)
    (Run.counter_of 1 Run.challenge1) rfl (Run.form1 _ _) (Run.counter_of 2 Run.challenge1) rfl not_yet2
    login2 (by decide) (by decide) (by decide) login3 (fun l m hl h => by
      obtain ⟨hj, h6⟩ := only_logins h
      rcases hj with rfl | rfl | rfl
      · exact absurd rfl hl
      · exact absurd h6 (by decide)
      · exact absurd h6 (by decide))

/-- Their responses differ. -/
example : ¬ ((Run.authCredential 1 Run.challenge1).rawId = (Run.authCredential 2 Run.challenge1).rawId ∧
    (Run.authCredential 1 Run.challenge1).response = (Run.authCredential 2 Run.challenge1).response) :=
  C63_no_replay_partial (app := Run.app) (reqs := Threads.reqs) (i := 2) (j := 3) (sched := sched4)
    (q := base ++ [2, 2, 2, 2, 2]) (p := base ++ [2, 2, 2, 2, 2, 2, 3, 3]) rfl (Run.form1 _ _)
    rfl (Run.form1 _ _) not_yet2
    login2 (by decide) (by decide) (by decide) login3 (fun l m hl h => by
      obtain ⟨hj, h6⟩ := only_logins h
      rcases hj with rfl | rfl | rfl
      · exact absurd rfl hl
      · exact absurd h6 (by decide)
      · exact absurd h6 (by decide))

/-- The login 2 is honest and overlaps the login 3, which is answered after 2 has read
the counter (an instance of `C63_authentication`). -/
example : answer Run.app Threads.reqs (sched2 ++ [2]) 2 = some success := by
  refine C63_authentication (app := Run.app) Demo.codec Demo.json (pre := base) (j := 0) (j' := 1)
    (c := Run.authCredential 1 Run.challenge1) (cdj := Run.clientData "webauthn.get" Run.challenge1)
    (raw := Run.authRaw 1) (sig := Run.signature 1 Run.challenge1) (handle := some Run.handle1)
    (ad := Run.authAd 1) (k := Demo.key) (now := 9000) (by decide) (issuedAt_mono (by decide) issued0)
    (by decide) (registered1 (by decide) (by decide)) rfl (by decide) (by decide) (Run.form1 _ _) rfl
    (Run.clientData_text _ _) (C38_base64url_encoding _).1 ?_ (Run.authRaw_enc 1) ?_ ?_
    (Run.signature_ok 1 Run.challenge1) ?_
  · intro h hh
    obtain rfl := Option.some.inj hh
    exact ⟨_, ada, rfl, rfl⟩
  · exact Run.rpHash_enc (Run.authRaw_enc 1) rfl
  · exact Demo.flagSet_enc (Run.authRaw_enc 1) (by decide)
  · intro p j m h1 h2 hj h
    obtain ⟨hj', h6⟩ := only_logins h
    have : ∀ p ∈ (sched2 ++ [2]).inits, p.count 2 = 2 → p.count 3 = 0 ∧ p.count 4 = 0 := by decide
    have := this p ((List.mem_inits _ _).mpr ((List.prefix_append _ _).trans h1)) h2
    rcases hj' with rfl | rfl | rfl
    · exact absurd rfl hj
    · omega
    · omega

end WebAuthn.Flask
