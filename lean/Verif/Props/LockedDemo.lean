import Verif.Props.Locked
import Verif.Props.GuardsDemo
import Verif.Props.FlaskThreadsDemo

/-!
# Overlapping requests behind the lock, concretely (C85)
-/

namespace WebAuthn.Flask

open WebAuthn.Spec WebAuthn.Props

/-- C85: without the lock overlapping requests are not answered as if they came one after the
other. -/
theorem C85_lock_needed : ∃ (app : App) (reqs : Nat → Event), CodecLaws app.env ∧ JsonLaw app.env ∧
    ¬ Linearizable (reply app) reqs (answer app reqs) := by
  refine ⟨Run.app, Threads.reqs, Demo.codec, Demo.json, ?_⟩
  rintro ⟨order, h1, h2, h3⟩
  have L : Lin (reply Run.app) Threads.reqs (answer Run.app Threads.reqs) order := ⟨h1, h2, h3⟩
  have G : Guarantees (reply Run.app) Run.app := by
    have := C84_guarantees (app := Run.app) Demo.codec Demo.json []
    rwa [show guardedReply Run.app [] = reply Run.app from funext fun _ => funext fun _ =>
      C84_no_guards _ _] at this
  obtain ⟨p, q, hs, hr⟩ := (L.ans_iff _ _ _).mp Threads.both.1
  obtain ⟨p', q', hs', hr'⟩ := (L.ans_iff _ _ _).mp Threads.both.2
  have a : AuthenticatesBy (reply Run.app) Run.app (p.map Threads.reqs) (Threads.reqs 3) Demo.credId 2 :=
    ⟨_, _, _, _, _, rfl, hr, Run.form1 _ _, rfl, Run.counter_of 2 Run.challenge1⟩
  have a' : AuthenticatesBy (reply Run.app) Run.app (p'.map Threads.reqs) (Threads.reqs 4) Demo.credId 2 :=
    ⟨_, _, _, _, _, rfl, hr', Run.form1 _ _, rfl, Run.counter_of 2 Run.challenge1⟩
  rcases Lin.total (reqs := Threads.reqs) (show 3 ≠ 4 by decide) hs hs' with h | h
  · exact absurd (G.increasing _ _ _ _ _ _ _ h a' a) (by decide)
  · exact absurd (G.increasing _ _ _ _ _ _ _ h a a') (by decide)

namespace Run

/-- 0: Ada asks for a registration; 1: and for an authentication; 2: she registers; 3: she logs
in with the counter 6; 4: somebody asks without a name; 5: the login is repeated. -/
def lockedReqs : Nat → Event
  | 0 => e1
  | 1 => ask2
  | 2 => sign16
  | 3 => login16 6
  | 5 => login16 6
  | _ => .registrationRequest none [] [] 0

abbrev locked (sched : List (Action Nat)) (i : Nat) : Option Reply :=
  lockedAnswer app (allGuards app) lockedReqs sched i

def base0 : List (Action Nat) := List.replicate 8 (.go 0)
def base1 : List (Action Nat) := base0 ++ List.replicate 8 (.go 1)
def base2 : List (Action Nat) := base1 ++ List.replicate 8 (.go 2)

theorem base0_served : (serveLocked app (allGuards app) lockedReqs base0).holder = none ∧
    lockOrder app (allGuards app) lockedReqs base0 = [0] ∧ ∀ j, j ≠ 0 →
    (serveLocked app (allGuards app) lockedReqs base0).phases j = .waiting :=
  served_alone (app := app) (gs := allGuards app) (reqs := lockedReqs) (sched := []) (i := 0) rfl rfl

theorem base1_served : (serveLocked app (allGuards app) lockedReqs base1).holder = none ∧
    lockOrder app (allGuards app) lockedReqs base1 = [0, 1] ∧ ∀ j, j ≠ 0 → j ≠ 1 →
    (serveLocked app (allGuards app) lockedReqs base1).phases j = .waiting := by
  obtain ⟨h1, h2, h3⟩ := base0_served
  obtain ⟨g1, g2, g3⟩ := served_alone (app := app) (gs := allGuards app) (reqs := lockedReqs)
    (sched := base0) (i := 1) h1 (h3 1 (by decide))
  exact ⟨g1, by rw [base1, g2, h2, List.cons_append, List.nil_append], fun j h0 h1 => by rw [base1, g3 j h1, h3 j h0]⟩

theorem base2_served : (serveLocked app (allGuards app) lockedReqs base2).holder = none ∧
    lockOrder app (allGuards app) lockedReqs base2 = [0, 1, 2] ∧ ∀ j, j ≠ 0 → j ≠ 1 → j ≠ 2 →
    (serveLocked app (allGuards app) lockedReqs base2).phases j = .waiting := by
  obtain ⟨h1, h2, h3⟩ := base1_served
  obtain ⟨g1, g2, g3⟩ := served_alone (app := app) (gs := allGuards app) (reqs := lockedReqs)
    (sched := base1) (i := 2) h1 (h3 2 (by decide) (by decide))
  exact ⟨g1, by rw [base2, g2, h2]; simp only [List.cons_append, List.nil_append], fun j h0 h1 h2 => by rw [base2, g3 j h2, h3 j h0 h1]⟩

theorem locked_lin : Lin guarded lockedReqs locked (lockOrder app (allGuards app) lockedReqs) :=
  lockOrder_lin app (allGuards app) lockedReqs

theorem locked_issued : IssuedWith locked lockedReqs base1 1 2 challenge2 1000 "ada" := by
  obtain ⟨⟨key, v, h⟩, hreq⟩ := guarded2
  refine ⟨⟨key, v, (locked_lin.ans_iff _ _ _).mpr ⟨[0], [], ?_, h⟩⟩, hreq⟩
  exact base1_served.2.1

theorem locked_issued1 : IssuedWith locked lockedReqs base1 0 1 challenge1 0 "ada" := by
  obtain ⟨⟨key, v, h⟩, hreq⟩ := guarded1
  refine ⟨⟨key, v, (locked_lin.ans_iff _ _ _).mpr ⟨[], [1], ?_, h⟩⟩, hreq⟩
  exact base1_served.2.1

theorem locked2 : locked base2 2 = some success := by
  refine (locked_lin.ans_iff _ _ _).mpr ⟨[0, 1], [], ?_, sign16_reply⟩
  exact base2_served.2.1

theorem locked_registered : RegisteredWith locked app lockedReqs base2 2 id16 "ada" Demo.key :=
  ⟨_, _, _, regCredential16, _, _, _, regRaw16, attested16, rfl, locked2, form1 _ _, rfl, rfl,
    attObj16_of, rfl, rfl⟩

/-- Ada registers while other requests are in progress or cut off, which cannot do anything about it
(an instance of `C85_registration`). -/
theorem locked_registration {sched : List (Action Nat)} {r : Reply} (hb : base1 <+: sched)
    (hs : ∀ i, .go i ∈ sched → i = 0 ∨ i = 1 ∨ i = 2 ∨ i = 4) (h : locked sched 2 = some r) : r = success := by
  have hm : Earlier locked sched 2 base1 :=
    ⟨hb, locked_lin.none_iff.mpr (by show 2 ∉ lockOrder app (allGuards app) lockedReqs base1; rw [base1_served.2.1]; decide)⟩
  have only : ∀ {m j t n c name}, Earlier locked sched 2 m →
      ¬ SucceededWith locked app lockedReqs m j t n c name := by
    rintro m j t n c name ⟨hp, hn⟩ ⟨ha, f, hreq, -⟩
    have hj := hs j (hp.subset (answered_gone _ ha))
    rcases hj with rfl | rfl | rfl | rfl
    · rcases hreq with h | h <;> cases h
    · rcases hreq with h | h <;> cases h
    · rw [hn] at ha
      cases ha
    · rcases hreq with h | h <;> cases h
  refine C85_registration (app := app) (reqs := lockedReqs) Demo.codec Demo.json (i := 2) (j := 0)
    (c := regCredential16) (cdj := clientData "webauthn.create" challenge1) (ob := attObj16)
    (acd := attested16) (k := Demo.key) h rfl hm locked_issued1 ?_ (fun _ _ _ _ _ => only) (form1 _ _)
    rfl (clientData_text _ _) (C38_base64url_encoding _).1 attObj16_enc regRaw16_enc ?_ ?_ storedKey_eq
    ?_ ?_ ?_ ?_ ?_ ?_ ?_ ?_
  · decide
  · rfl
  · rfl
  · exact rpHash_enc regRaw16_enc rfl
  · exact Demo.flagSet_enc regRaw16_enc (by decide)
  · exact ⟨_, rfl, rfl⟩
  · exact ⟨rfl, rfl, rfl, _, _, ⟨_, rfl, rfl⟩, rfl, .es256⟩
  · rfl
  · decide
  · rintro m j name k he ⟨f, t, n, c, _, _, _, _, _, h1, h2, h3, -⟩
    exact only he ⟨h2, f, Or.inl h1, h3⟩
  · rintro m j name k he ⟨f, t, n, c, _, _, _, _, _, h1, h2, h3, -⟩
    exact only he ⟨h2, f, Or.inl h1, h3⟩

/-- She logs in while other requests are in progress or cut off (an instance of `C85_login`). -/
theorem locked_login {sched : List (Action Nat)} {r : Reply} (hb : base2 <+: sched)
    (hs : ∀ i, .go i ∈ sched → i = 0 ∨ i = 1 ∨ i = 2 ∨ i = 3 ∨ i = 4) (h : locked sched 3 = some r) :
    r = success := by
  have hm : Earlier locked sched 3 base2 :=
    ⟨hb, locked_lin.none_iff.mpr (by show 3 ∉ lockOrder app (allGuards app) lockedReqs base2; rw [base2_served.2.1]; decide)⟩
  have hm1 : Earlier locked sched 3 base1 :=
    ⟨(List.prefix_append _ _).trans hb, locked_lin.none_iff.mpr (by show 3 ∉ lockOrder app (allGuards app) lockedReqs base1; rw [base1_served.2.1]; decide)⟩
  have only : ∀ {m j t n c name}, Earlier locked sched 3 m →
      SucceededWith locked app lockedReqs m j t n c name → j = 2 := by
    rintro m j t n c name ⟨hp, hn⟩ ⟨ha, f, hreq, -⟩
    have hj := hs j (hp.subset (answered_gone _ ha))
    rcases hj with rfl | rfl | rfl | rfl | rfl
    · rcases hreq with h | h <;> cases h
    · rcases hreq with h | h <;> cases h
    · rfl
    · rw [hn] at ha
      cases ha
    · rcases hreq with h | h <;> cases h
  refine C85_login (app := app) (reqs := lockedReqs) Demo.codec Demo.json (i := 3) (j := 1) (j' := 2)
    (c := authCredential16 6 challenge2)
    (cdj := clientData "webauthn.get" challenge2)
    (raw := authRaw 6) (sig := signature 6 challenge2) (handle := some handle1) (ad := authAd 6)
    (k := Demo.key) h rfl hm1 locked_issued ?_ ?_ hm locked_registered (form2 _ _) rfl
    (clientData_text _ _) (C38_base64url_encoding _).1 ?_ (authRaw_enc 6) ?_ ?_
    (signature_ok 6 challenge2) ?_ ?_
  · decide
  · intro m j t c name he hsucc
    obtain rfl := only he hsucc
    obtain ⟨-, f, hreq, hf⟩ := hsucc
    rcases hreq with hreq | hreq
    · cases hreq
      exact absurd (submits_unique hf (form1 _ _)).1 (by decide)
    · cases hreq
  · intro h hh
    obtain rfl := Option.some.inj hh
    refine ⟨base1, hm1, base1_served.1, ⟨1, "ada", handle1⟩, ?_, rfl, rfl⟩
    rw [(lockInv base1).free base1_served.1, base1_served.2.1, guardedRun_db]
    obtain ⟨more, hm, -⟩ := servedOf_append (app := app) (gs := allGuards app) [e1] [ask2]
    rw [show [0, 1].map lockedReqs = [e1] ++ [ask2] from rfl, hm]
    obtain ⟨us, hu⟩ := (run_prefix app (servedOf app (allGuards app) [e1]) more).1
    rw [hu]
    exact List.mem_append_left _ (by rw [show servedOf app (allGuards app) [e1] = [e1] from rfl, run1]; simp)
  · exact rpHash_enc (authRaw_enc 6) rfl
  · exact Demo.flagSet_enc (authRaw_enc 6) (show (1 : Nat).testBit 0 = true by decide)
  · rintro m j b he ⟨f, t, n, c, name, hreq, ha, hf, -⟩
    obtain rfl := only he ⟨ha, f, Or.inr hreq, hf⟩
    cases hreq
  · rintro m j b he ⟨f, t, n, c, name, hreq, ha, hf, -, hc⟩ -
    obtain rfl := only he ⟨ha, f, Or.inl hreq, hf⟩
    cases hreq
    obtain ⟨-, rfl, -⟩ := submits_unique hf (form1 _ _)
    rw [hasInitialCounter_unique hc initial16]
    decide

/-- It is answered, and with success. -/
theorem locked3 : locked (base2 ++ List.replicate 8 (.go 3)) 3 = some success := by
  obtain ⟨h1, h2, h3⟩ := base2_served
  obtain ⟨-, g2, -⟩ := served_alone (app := app) (gs := allGuards app) (reqs := lockedReqs)
    (sched := base2) (i := 3) h1 (h3 3 (by decide) (by decide) (by decide))
  have : ∃ r, locked (base2 ++ List.replicate 8 (.go 3)) 3 = some r :=
    ⟨_, (locked_lin.ans_iff _ _ _).mpr ⟨[0, 1, 2], [], by simp only [g2, h2, List.cons_append, List.nil_append], rfl⟩⟩
  obtain ⟨r, hr⟩ := this
  rw [hr, locked_login (List.prefix_append _ _)
    (by intro i hi; simp [base2, base1, base0] at hi; omega) hr]

/-- When the response comes again, at the same time or later, it is refused (an instance of
`C85_safe`). -/
theorem locked_replay {sched : List (Action Nat)} (h : locked sched 3 = some success) :
    locked sched 5 ≠ some success := fun h' =>
  absurd ((C85_safe (app := app) Demo.codec Demo.json lockedReqs).singleUse sched 3 5 9000 9000 2 _ _ "ada" "ada"
    ⟨h, _, Or.inr rfl, form2 _ _⟩ ⟨h', _, Or.inr rfl, form2 _ _⟩) (by decide)

example : locked (base2 ++ List.replicate 8 (.go 3) ++ [.go 5, .go 5, .go 5]) 5 ≠ some success :=
  locked_replay (by
    obtain ⟨pre, post, hs, hr⟩ := (locked_lin.ans_iff _ _ _).mp locked3
    obtain ⟨rest, h⟩ := locked_lin.mono (base2 ++ List.replicate 8 (.go 3)) [.go 5, .go 5, .go 5]
    exact (locked_lin.ans_iff _ _ _).mpr ⟨pre, post ++ rest, by rw [← h, hs]; simp, hr⟩)

/-- The login takes the lock and is cut off; it is made again, and succeeds. -/
example : (serveLocked app (allGuards app) lockedReqs (base2 ++ [.go 3])).holder = some 3 ∧
    locked (base2 ++ [.go 3, .cut 3] ++ List.replicate 8 (.go 5)) 3 = none ∧
    locked (base2 ++ [.go 3, .cut 3] ++ List.replicate 8 (.go 5)) 5 = some success := by
  obtain ⟨h1, h2, h3⟩ := base2_served
  obtain ⟨-, g2, -⟩ := served_alone (app := app) (gs := allGuards app) (reqs := lockedReqs)
    (sched := base2) (i := 3) h1 (h3 3 (by decide) (by decide) (by decide))
  obtain ⟨p, q, hs, hr⟩ := (locked_lin.ans_iff _ _ _).mp locked3
  obtain ⟨rfl, -⟩ := locked_lin.unique hs
    (show lockOrder app (allGuards app) lockedReqs (base2 ++ List.replicate 8 (.go 3)) = [0, 1, 2] ++ 3 :: [] by
      rw [g2, h2])
  obtain ⟨c1, c2, c3, c4⟩ := cut_alone (app := app) (gs := allGuards app) (reqs := lockedReqs)
    (sched := base2) (i := 3) h1 (h3 3 (by decide) (by decide) (by decide)) (by
      intro m h
      rw [h2] at h
      have hr' : guardedReply app (allGuards app) (List.map lockedReqs [0, 1, 2]) (lockedReqs 3) = success := hr
      rw [hr'] at h
      exact absurd h (by simp [success]))
  refine ⟨c3, ?_⟩
  generalize base2 ++ [.go 3, .cut 3] = base3 at c1 c2 c4 ⊢
  obtain ⟨d1, d2, d3⟩ := served_alone (app := app) (gs := allGuards app) (reqs := lockedReqs)
    (sched := base3) (i := 5) c1
    (by rw [c4 5 (by decide)]; exact h3 5 (by decide) (by decide) (by decide))
  refine ⟨locked_lin.none_iff.mpr (by rw [d2, c2, h2]; decide),
    (locked_lin.ans_iff _ _ _).mpr ⟨[0, 1, 2], [], ?_, hr⟩⟩
  rw [d2, c2, h2]

/-- Six requests are answered after 48 rounds (an instance of `C85_answered`). -/
example (i : Fin 6) : ∃ r, lockedAnswer app (allGuards app) (fun i : Fin 6 => lockedReqs i)
    (List.replicate 48 ((List.finRange 6).map .go)).flatten i = some r :=
  C85_answered _ (by
      intro r hr i
      rw [List.eq_of_mem_replicate hr]
      exact List.mem_map_of_mem (List.mem_finRange i)) (by simp) (by simp)

/-- Five of them are answered if the sixth is cut off again and again. -/
example (i : Fin 6) (hi : i ≠ 3) : ∃ r, lockedAnswer app (allGuards app) (fun i : Fin 6 => lockedReqs i)
    (List.replicate 48 (.cut 3 :: (List.finRange 6).map .go)).flatten i = some r :=
  C85_answered _ (by
      intro r hr i
      rw [List.eq_of_mem_replicate hr]
      exact List.mem_cons_of_mem _ (List.mem_map_of_mem (List.mem_finRange i))) (by simp) (by simp [hi])

end Run

end WebAuthn.Flask
