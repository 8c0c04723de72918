import Verif.Props.RestoreMarked
import Verif.Props.CounterlessDemo
import Verif.Props.PhishingDemo
import Verif.Props.Swept
import Verif.Props.Lockout

/-!
# Backups of the database are put back, concretely (C101)
-/

namespace WebAuthn.Flask.Run

open Spec Props

/-! ## Ada logs in, and the copy from before is put back at once -/

/-- Ada registers and logs in, the copy from before the login is put back, and the same response
is sent again. -/
def again : List Step := [.request e1, .request e2, .request e3, .request e4, .restore 3, .request e4]

theorem known3 : known [.request e1, .request e2, .request e3] = [(0, e1), (1, e2), (2, e3)] := rfl

theorem known_back : known [.request e1, .request e2, .request e3, .request e4, .restore 3] =
    [(0, e1), (1, e2), (2, e3)] := rfl

theorem again_registers : RegistersAt (restoredReply app) app again 2 Demo.credId "ada" Demo.key :=
  registersAt_iff.mpr ⟨e3, rfl, registers3⟩

theorem again_login3 : KeyLoginAt (restoredReply app) app again Demo.key (authCredential 1 challenge1) 3 :=
  ⟨_, _, _, _, 2, _, rfl, (restoredReply_known _ _ _).trans reply4, form1 _ _,
    .now [.request e1, .request e2] e3, again_registers⟩

theorem again_login5 : KeyLoginAt (restoredReply app) app again Demo.key (authCredential 1 challenge1) 5 :=
  ⟨_, _, _, _, 2, _, rfl, (restoredReply_known _ _ _).trans reply4, form1 _ _,
    .restored [.request e1, .request e2, .request e3, .request e4] 3 2 (.now [.request e1, .request e2] e3),
    again_registers⟩

theorem again_holder : Holder app.env Demo.key (Sent app (requests again)) acts := by
  refine holder_of ?_
  rintro cdj raw sig ⟨f, t, n, c, name, handle, hm, hf, hc⟩
  simp only [requests, again, List.filterMap_cons, List.filterMap_nil, e1, e2, e3, List.mem_cons,
    List.not_mem_nil, or_false, reduceCtorEq, false_or, or_self] at hm
  exact sent_of (Or.inl hm) hf hc

theorem challenges_differ : challenge1 ≠ challenge2 := by decide

theorem again_drawn : NotDrawnAgain (requests again) := by
  show NotDrawnAgain [e1, e2, e3, e4, e4]
  have h := challenges_differ
  simp [NotDrawnAgain, e1, e2, e3, e4, asked]
  grind

end WebAuthn.Flask.Run

namespace WebAuthn.Flask

open WebAuthn.Spec WebAuthn.Props

/-- C101: if copies may be put back at any time, one approval is good for two logins. -/
theorem C101_one_login_refuted : ∃ app, CodecLaws app.env ∧ JsonLaw app.env ∧
    ¬ OneEachRestored (restoredReply app) app fun _ => True := by
  refine ⟨Run.app, Demo.codec, Demo.json, fun h => ?_⟩
  obtain ⟨approval, h1, h2⟩ := h Run.again Demo.key Run.acts Demo.credId Run.again_holder Run.again_drawn trivial
  have key : ∀ i, KeyLoginAt (restoredReply Run.app) Run.app Run.again Demo.key (Run.authCredential 1 Run.challenge1) i →
      approval i = some (Run.approval 1) := by
    intro i hi
    obtain ⟨a, ch, e1, e2, e3⟩ := h1 i _ hi rfl
    rw [e1]
    rcases e2 with rfl | rfl
    · rfl
    · obtain ⟨sig, handle, e⟩ := e3.response
      simp only [Run.authCredential, Run.approval, Response.assertion.injEq, Run.authRaw] at e
      simp at e
  exact absurd (h2 3 5 _ _ Run.again_login3 rfl Run.again_login5 rfl
    ((key 3 Run.again_login3).trans (key 5 Run.again_login5).symm)) (by decide)

end WebAuthn.Flask

namespace WebAuthn.Flask.Run

open Spec Props

/-! ## The copy is put back a minute later -/

def askLate : Event := .authenticationRequest (some "ada") challenge0 65000

def loginLate : Event := .authenticationResponse (formOf "3" (authCredential 1 challenge0) "ada") 70000

/-- Ada gets a new challenge and logs in with the counter of the forgotten login. -/
def waited : List Step :=
  [.request e1, .request e2, .request e3, .request e4, .restore 3, .request askLate, .request loginLate]

theorem after_registration (app : App) (evs : List Event) (f : Form) (t : Int) :
    (run app (evs ++ [.registrationResponse f t])).challenges = (run app evs).challenges := by
  rw [run_snoc]
  exact (response_keeps app _ f t).1

theorem late_challenges : (run app ([e1, e2] ++ [e3])).challenges =
    [⟨1, challenge1, 0, 1⟩, ⟨2, challenge2, 1000, 2⟩] :=
  (after_registration app [e1, e2] _ _).trans (congrArg Db.challenges run2)

/-- Who is registered gets the challenge that was drawn, if it is a new one. -/
theorem login_issues {app : App} {evs pre : List Event} {e : Event} {id : Bytes} {name : String} {k : CPK}
    (ho : Occurs evs pre e) (hr : Registers app pre e id name k) {ch : Bytes} (t : Int)
    (hc : ∀ c ∈ (run app evs).challenges, c.request ≠ ch) {n : Nat}
    (hn : (run app evs).challenges.length + 1 = n) :
    Issues app evs (.authenticationRequest (some name) ch t) n ch t name := by
  obtain ⟨u, row, hu, rfl, -⟩ := registered_row ho hr
  obtain ⟨v, -, h1⟩ := authenticationRequest_issued (C64_consistent_history app evs) (t := t) hu hc
  subst hn
  exact ⟨⟨_, v, congrArg Prod.fst h1⟩, Or.inr rfl⟩

theorem late_issued : Issues app [e1, e2, e3] askLate 3 challenge0 65000 "ada" := by
  refine login_issues ⟨[], rfl⟩ registers3 65000 ?_ (by rw [late_challenges]; rfl)
  intro c hc he
  rw [late_challenges] at hc
  rcases List.mem_cons.mp hc with rfl | hc
  · exact absurd he (by decide)
  · rw [List.mem_singleton.mp hc] at he
    exact absurd he (by decide)

theorem later_reply : restoredReply app (waited.take 6) loginLate = success := by
  rw [restoredReply_known, show (known (waited.take 6)).map Prod.snd = [e1, e2, e3] ++ [askLate] from rfl]
  refine C56_authentication (app := app) Demo.codec Demo.json (pre := [e1, e2, e3]) (pre' := [e1, e2])
    (e := askLate) (e' := e3) (c := authCredential 1 challenge0) (cdj := clientData "webauthn.get" challenge0)
    (raw := authRaw 1) (sig := signature 1 challenge0) (handle := some handle1) (ad := authAd 1)
    (k := Demo.key) ⟨[], rfl⟩ late_issued (by decide) ⟨[askLate], rfl⟩ registers3 (form3 _ _) rfl
    (clientData_text _ _) (C38_base64url_encoding _).1 ?_ (authRaw_enc 1) (rpHash_enc (authRaw_enc 1) rfl)
    (Demo.flagSet_enc (authRaw_enc 1) (by decide)) (signature_ok 1 challenge0) ?_
  · intro h hh
    obtain rfl := Option.some.inj hh
    refine ⟨⟨1, "ada", handle1⟩, ?_, rfl, rfl⟩
    obtain ⟨us, hu⟩ := (run_prefix app [e1] [e2, e3, askLate]).1
    rw [show [e1, e2, e3] ++ [askLate] = [e1] ++ [e2, e3, askLate] from rfl, hu]
    exact List.mem_append_left _ (by rw [run1]; simp)
  · rintro pre e m ⟨post, ho⟩ ⟨f, t, n, c, name, j, rfl, -⟩
    have : Event.authenticationResponse f t ∈ [e1, e2, e3] ++ [askLate] := by rw [ho]; simp
    simp [e1, e2, e3, askLate] at this

theorem later_drawn : NotDrawnAgain (requests waited) := by
  show NotDrawnAgain [e1, e2, e3, e4, askLate, loginLate]
  have h1 : challenge1 ≠ challenge2 := by decide
  have h2 : challenge1 ≠ challenge0 := by decide
  have h3 : challenge2 ≠ challenge0 := by decide
  simp [NotDrawnAgain, e1, e2, e3, e4, askLate, loginLate, asked]
  grind

theorem later_settled : Settled waited := by
  intro i n j e ch t' l f t hi hs hj ha hil hl
  have hi' : i = 4 ∧ n = 3 := by
    match i, hi with
    | 4, hi => exact ⟨rfl, by cases hi; rfl⟩
    | 0, hi | 1, hi | 2, hi | 3, hi | 5, hi | 6, hi => cases hi
    | i + 7, hi => cases hi
  obtain ⟨rfl, rfl⟩ := hi'
  have hl' : t = 70000 := by
    match l, hl with
    | 6, hl => cases hl; rfl
    | 0, hl | 1, hl | 2, hl | 3, hl | 4, hl | 5, hl => cases hl <;> omega
    | l + 7, hl => cases hl
  subst hl'
  have hj3 : j < 3 := stands_lt hs
  match j, hj, hj3 with
  | 0, hj, _ => cases hj; cases ha; decide
  | 1, hj, _ => cases hj; cases ha; decide
  | 2, hj, _ => cases hj; cases ha

/-- The premises of `C101_one_login_partial` hold of the steps, in which there are two logins. -/
example : NotDrawnAgain (requests waited) ∧ Settled waited ∧
    KeyLoginAt (restoredReply app) app waited Demo.key (authCredential 1 challenge1) 3 ∧
    KeyLoginAt (restoredReply app) app waited Demo.key (authCredential 1 challenge0) 6 := by
  have hr : RegistersAt (restoredReply app) app waited 2 Demo.credId "ada" Demo.key :=
    registersAt_iff.mpr ⟨e3, rfl, registers3⟩
  refine ⟨later_drawn, later_settled, ⟨_, _, _, _, 2, _, rfl, (restoredReply_known _ _ _).trans reply4,
    form1 _ _, .now [.request e1, .request e2] e3, hr⟩, ⟨_, _, _, _, 2, _, rfl, later_reply, form3 _ _, ?_, hr⟩⟩
  exact .later [.request e1, .request e2, .request e3, .request e4, .restore 3] askLate 2
    (.restored [.request e1, .request e2, .request e3, .request e4] 3 2 (.now [.request e1, .request e2] e3))

/-- The login that was undone does not stand, the registration does. -/
example : ¬ Stands (waited.take 6) 3 ∧ Stands (waited.take 6) 2 := by
  constructor
  · intro h
    obtain ⟨e, h⟩ := stands_known.mp h
    rw [show known (waited.take 6) = [(0, e1), (1, e2), (2, e3), (5, askLate)] from rfl] at h
    simp at h
  · exact stands_known.mpr ⟨e3, by
      rw [show known (waited.take 6) = [(0, e1), (1, e2), (2, e3), (5, askLate)] from rfl]; simp⟩

/-! ## The challenges in the copy are no longer taken -/

theorem once_restored : (again.take 5)[4]? = some (.restore 3) := rfl

theorem again_stands : Stands (again.take 5) 0 :=
  .restored [.request e1, .request e2, .request e3, .request e4] 3 0
    (.later [.request e1, .request e2] e3 0 (.later [.request e1] e2 0 (.now [] e1)))

theorem again_issues : IssuesAt (markedReply app) (again.take 5) 0 1 challenge1 0 "ada" := ⟨e1, rfl, issues1⟩

/-- The response that was good before is refused. -/
example : markedReply app (again.take 5) e4 = .text "Challenge from before the restoration" 400 :=
  (C101_marked_refused again_stands again_issues (by decide) once_restored (Or.inr rfl) (form1 _ _)).1

theorem cleaned_waited : cleaned app (waited.take 6) = waited.take 6 := by
  have h : cleaned app [.request e1, .request e2, .request e3, .request e4] =
      [.request e1, .request e2, .request e3, .request e4] := cleaned_same app fun q m hr => by
    match q, hr with
    | 0, hr | 1, hr | 2, hr | 3, hr => cases hr
    | q + 4, hr => cases hr
  have hw : waited.take 6 =
      [.request e1, .request e2, .request e3, .request e4] ++ [.restore 3] ++ [.request askLate] := rfl
  rw [hw, cleaned_snoc, cleaned_snoc, h]
  rfl

theorem waited_since : SinceRestored (markedReply app) app (waited.take 6) loginLate := by
  intro f t n c name he hf
  have hf' : f = formOf "3" (authCredential 1 challenge0) "ada" := by
    rcases he with he | he
    · cases he
    · cases he
      rfl
  subst hf'
  obtain ⟨rfl, rfl, rfl⟩ := submits_unique hf (form3 _ _)
  refine ⟨5, challenge0, 65000, "ada", ?_, ?_⟩
  · rw [marked_issuesAt, cleaned_waited, issuesAt_iff]
    exact ⟨askLate, rfl, late_issued⟩
  · intro q m hq hr
    match q, hq, hr with
    | q + 6, _, hr => cases hr

/-- Who asks for a new challenge logs in. -/
example : markedReply app (waited.take 6) loginLate = success := by
  rw [markedReply_eq, not_outdated waited_since, cleaned_waited, if_neg Bool.false_ne_true]
  exact later_reply

end WebAuthn.Flask.Run
