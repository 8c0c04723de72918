import Verif.Props.Lifecycle
import Verif.Props.RestoreDemo

/-!
# The application is started and stopped, concretely (C109)
-/

namespace WebAuthn.Flask

open WebAuthn.Spec WebAuthn.Props

/-- A process that is not interrupted is the application. -/
theorem started_reply (careful : Bool) (app : App) (evs : List Event) (e : Event) :
    lifeReply careful app (.start :: evs.map .request) e = reply app evs e := by
  have key : host careful app (.start :: evs.map .request) = ⟨true, some (run app evs)⟩ := by
    induction evs using List.reverseRecOn with
    | nil => rfl
    | append_singleton l x ih =>
      rw [List.map_append, List.map_singleton, ← List.cons_append, host_snoc, ih, run_snoc]
      rfl
  rw [lifeReply, key]
  rfl

theorem started_listening (evs : List Event) : Listening (.start :: evs.map .request) :=
  ⟨[], evs.map .request, rfl, by simp, by simp⟩

theorem started_one (evs : List Event) : OneProcess (.start :: evs.map .request) := by
  rintro q ⟨h1, h2⟩
  cases q with
  | zero => exact listening_nil h2
  | succ q => simp at h1

end WebAuthn.Flask

namespace WebAuthn.Flask.Run

open Spec Props

/-- The process is killed after Ada got the challenge, and started again. -/
def killed : List Life := .start :: [e1, e2].map .request ++ .kill :: .start :: [.request e3]

theorem C109_instance_killed (careful : Bool) : lifeReply careful app killed e4 = success :=
  (C109_killed (Or.inr (started_one [e1, e2])) (started_listening _) _ _).trans
    ((started_reply careful app [e1, e2, e3] e4).trans reply4)

/-- The process is stopped after Ada registered, and started again. -/
theorem C109_instance_stopped (careful : Bool) :
    lifeReply careful app ((.start :: [e1, e2, e3].map .request) ++ .stop :: .start :: []) e4 ≠ success := by
  rw [C109_stopped (started_listening _), show Life.start :: [] = .start :: ([] : List Event).map .request from rfl,
    started_reply]
  intro h
  obtain ⟨n, c, name, pre, e, k, cdj, raw, sig, hd, -, ⟨post, h2⟩, -⟩ := C49_login Demo.codec h
  simp at h2

/-- A process is started while the first one serves Ada. -/
theorem C109_instance_disturbed : lifeReply false app ((.start :: [e1, e2, e3].map .request) ++ .start :: [].map .request)
    askLate = .crash operationalError :=
  (C109_disturbed (started_listening _) [] askLate).2 "ada" [] challenge0 65000 (Or.inr rfl)

theorem C109_instance_partial (e : Event) :
    lifeReply false app (((.start :: [e1, e2].map .request) ++ .start :: [.request e3]) ++ .stop :: .start :: [.request e1]) e =
      lifeReply false app (((.start :: [e1, e2].map .request) ++ [.request e3]) ++ .stop :: .start :: [.request e1]) e :=
  C109_partial (started_listening _) (by simp) (by simp) _ e

theorem C109_instance_careful : lifeReply true app ((.start :: [e1, e2, e3].map .request) ++ .start :: []) e4 = success :=
  (C109_careful app _ [] e4 (started_listening _)).trans
    ((congrArg (fun l => lifeReply true app l e4) (List.append_nil _)).trans
      ((started_reply true app [e1, e2, e3] e4).trans reply4))

theorem C109_instance_as_if : ∃ l : List (Nat × Event), (l.Pairwise fun x y => x.1 < y.1) ∧
    (∀ i e, (i, e) ∈ l ↔ (Life.start :: [e1, e2, e3].map .request)[i]? = some (.request e) ∧
      Listening ((Life.start :: [e1, e2, e3].map .request).take i) ∧
      Lasts false (Life.start :: [e1, e2, e3].map .request) i) ∧
    ∀ e, lifeReply false app (.start :: [e1, e2, e3].map .request) e = reply app (l.map Prod.snd) e :=
  C109_as_if (Or.inr (started_one _)) (started_listening _)

/-- The login that `C109_registered` is about. -/
theorem C109_instance_registered : ∃ n c name i k cdj raw sig handle,
    Submits app (formOf "1" (authCredential 1 challenge1) "ada") n c name ∧
    RegisteredIn (lifeReply false app) app killed i c.rawId name k ∧ Lasts false killed i ∧
    c.response = .assertion cdj raw sig handle ∧ SignedBy app.env k sig (raw ++ app.env.sha256 cdj) :=
  C109_registered Demo.codec (C109_instance_killed false)

/-! ## Two logins with a crash between them -/

def twice : List Life := .start :: [e1, e2, e3, e4].map .request ++ .kill :: .start :: [.request e5]

theorem twice_holder : Holder app.env Demo.key (Sent app (requestsOf twice)) acts := by
  refine holder_of ?_
  rintro cdj raw sig ⟨f, t, n, c, name, handle, hm, hf, hc⟩
  have hm : Event.authenticationResponse f t ∈ [e1, e2, e3, e4, e5] := hm
  simp only [e1, e2, e3, List.mem_cons, List.not_mem_nil, or_false, reduceCtorEq, false_or] at hm
  exact sent_of hm hf hc

theorem twice_drawn : NotDrawnAgain (requestsOf twice) := by
  show NotDrawnAgain [e1, e2, e3, e4, e5]
  have h := challenges_differ
  simp [NotDrawnAgain, e1, e2, e3, e4, e5, asked]
  grind

theorem twice_registered : RegisteredIn (lifeReply false app) app twice 3 Demo.credId "ada" Demo.key := by
  obtain ⟨f, t, n, c, cdj, ob, o, raw, acd, h1, h2, h3⟩ := registers3
  exact ⟨e3, rfl, f, t, n, c, cdj, ob, o, raw, acd, h1, (started_reply false app [e1, e2] e3).trans h2, h3⟩

theorem twice_lasts (j : Nat) : Lasts false (twice.take j) 3 := by
  intro q hq hr
  have hl := removedAt_lt hr
  rw [List.length_take] at hl
  have hl' : q < 8 := by
    have : twice.length = 8 := rfl
    omega
  have hqj : q < j := by omega
  rcases hr with ⟨h1, h2⟩ | ⟨-, h1, h2⟩
  · rw [List.getElem?_take, if_pos hqj] at h1
    obtain rfl | rfl | rfl | rfl : q = 4 ∨ q = 5 ∨ q = 6 ∨ q = 7 := by omega
    all_goals simp [twice] at h1
  · rw [List.getElem?_take, if_pos hqj] at h1
    rw [List.take_take, Nat.min_eq_left hqj.le] at h2
    obtain rfl | rfl | rfl | rfl : q = 4 ∨ q = 5 ∨ q = 6 ∨ q = 7 := by omega
    · simp [twice] at h1
    · simp [twice] at h1
    · have : Listening ((.start :: [e1, e2, e3, e4].map .request) ++ [.kill]) := h2
      rw [listening_snoc] at this
      simp at this
    · simp [twice] at h1

theorem C109_instance_before : LoggedInIn false (lifeReply false app) app twice Demo.key (authCredential 1 challenge1) 4 :=
  ⟨_, _, _, _, 3, _, rfl, (started_reply false app [e1, e2, e3] e4).trans reply4, form1 _ _, twice_registered, by decide,
    twice_lasts _⟩

theorem C109_instance_after : LoggedInIn false (lifeReply false app) app twice Demo.key (authCredential 2 challenge1) 7 :=
  ⟨_, _, _, _, 3, _, rfl,
    (C109_killed (hs := .start :: [e1, e2, e3, e4].map .request) (Or.inr (started_one _)) (started_listening _) [] e5).trans
      ((congrArg (fun l => lifeReply false app l e5) (List.append_nil _)).trans
        ((started_reply false app [e1, e2, e3, e4] e5).trans reply5)),
    form1 _ _, twice_registered, by decide, twice_lasts _⟩

theorem C109_instance_one_login :
    OneEach app.env acts (LoggedInIn false (lifeReply false app) app twice Demo.key) Demo.credId :=
  C109_one_login Demo.codec Demo.json twice_holder twice_drawn

/-! ## The same challenge is drawn again after a stop -/

def redrawn : List Life := .start :: [e1, e2, e3, e4].map .request ++ .stop :: .start :: [e1, e2, e3, e4].map .request

theorem redrawn_holder : Holder app.env Demo.key (Sent app (requestsOf redrawn)) acts := by
  refine holder_of ?_
  rintro cdj raw sig ⟨f, t, n, c, name, handle, hm, hf, hc⟩
  have hm : Event.authenticationResponse f t ∈ [e1, e2, e3, e4, e1, e2, e3, e4] := hm
  simp only [e1, e2, e3, List.mem_cons, List.not_mem_nil, or_false, reduceCtorEq, false_or, or_self] at hm
  exact sent_of (Or.inl hm) hf hc

theorem redrawn_reply (evs : List Event) (e : Event) :
    lifeReply false app (.start :: [e1, e2, e3, e4].map .request ++ .stop :: .start :: evs.map .request) e = reply app evs e :=
  (C109_stopped (started_listening _) _ _).trans (started_reply _ _ _ _)

theorem redrawn_registered : RegisteredIn (lifeReply false app) app redrawn 9 Demo.credId "ada" Demo.key := by
  obtain ⟨f, t, n, c, cdj, ob, o, raw, acd, h1, h2, h3⟩ := registers3
  exact ⟨e3, rfl, f, t, n, c, cdj, ob, o, raw, acd, h1, (redrawn_reply [e1, e2] e3).trans h2, h3⟩

theorem redrawn_first : LoggedInIn false (lifeReply false app) app redrawn Demo.key (authCredential 1 challenge1) 4 := by
  refine ⟨_, _, _, _, 3, "ada", rfl, (started_reply false app [e1, e2, e3] e4).trans reply4, form1 _ _, ?_, by decide, ?_⟩
  · obtain ⟨f, t, n, c, cdj, ob, o, raw, acd, h1, h2, h3⟩ := registers3
    exact ⟨e3, rfl, f, t, n, c, cdj, ob, o, raw, acd, h1, (started_reply false app [e1, e2] e3).trans h2, h3⟩
  · intro q hq hr
    have hl := removedAt_lt hr
    rw [List.length_take] at hl
    omega

theorem redrawn_second : LoggedInIn false (lifeReply false app) app redrawn Demo.key (authCredential 1 challenge1) 10 := by
  refine ⟨_, _, _, _, 9, _, rfl, (redrawn_reply [e1, e2, e3] e4).trans reply4, form1 _ _, redrawn_registered, by decide, ?_⟩
  intro q hq hr
  have hl := removedAt_lt hr
  rw [List.length_take] at hl
  omega

end WebAuthn.Flask.Run

namespace WebAuthn.Flask

open WebAuthn.Spec WebAuthn.Props

/-- C109: a process that is started while one serves makes a difference. -/
theorem C109_refuted : ∃ app, CodecLaws app.env ∧ JsonLaw app.env ∧ ¬ Undisturbed (lifeReply false app) := by
  refine ⟨Run.app, Demo.codec, Demo.json, fun h => ?_⟩
  have h1 := h (.start :: [Run.e1, Run.e2, Run.e3].map .request) ([].map .request) Run.e4 (started_listening _)
  exact (C109_disturbed (started_listening _) [] Run.e4).1 (h1.trans
    ((congrArg (fun l => lifeReply false Run.app l Run.e4) (List.append_nil _)).trans
      ((started_reply false Run.app [Run.e1, Run.e2, Run.e3] Run.e4).trans Run.reply4)))

/-- C109: if the bytes of a challenge are drawn again after a stop, one approval is good for two
logins. -/
theorem C109_redrawn_refuted : ∃ (app : App) (hs : List Life) (k : CPK) (acts : Approval → Prop) (id : Bytes),
    CodecLaws app.env ∧ JsonLaw app.env ∧ OneProcess hs ∧ Holder app.env k (Sent app (requestsOf hs)) acts ∧
    ¬ OneEach app.env acts (LoggedInIn false (lifeReply false app) app hs k) id := by
  refine ⟨Run.app, Run.redrawn, Demo.key, Run.acts, Demo.credId, Demo.codec, Demo.json, ?_, Run.redrawn_holder, ?_⟩
  · rintro q ⟨h1, h2⟩
    have hq : q < 11 := (List.getElem?_eq_some_iff.mp h1).1
    have : q = 0 ∨ q = 6 := by
      simp only [Run.redrawn] at h1
      interval_cases q <;> simp at h1 <;> simp
    rcases this with rfl | rfl
    · exact listening_nil h2
    · have : Listening ((.start :: [Run.e1, Run.e2, Run.e3, Run.e4].map .request) ++ [.stop]) := h2
      rw [listening_snoc] at this
      simp at this
  · rintro ⟨approval, h1, h2⟩
    have key : ∀ i, LoggedInIn false (lifeReply false Run.app) Run.app Run.redrawn Demo.key
        (Run.authCredential 1 Run.challenge1) i → approval i = some (Run.approval 1) := by
      intro i hi
      obtain ⟨a, ch, e1, e2, e3⟩ := h1 i _ hi rfl
      rw [e1]
      rcases e2 with rfl | rfl
      · rfl
      · obtain ⟨sig, handle, e⟩ := e3.response
        simp only [Run.authCredential, Run.approval, Response.assertion.injEq, Run.authRaw] at e
        simp at e
    exact absurd (h2 4 10 _ _ Run.redrawn_first rfl Run.redrawn_second rfl
      ((key 4 Run.redrawn_first).trans (key 10 Run.redrawn_second).symm)) (by decide)

end WebAuthn.Flask
