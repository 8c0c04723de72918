import Verif.Model.Expired
import Verif.Props.Clock

/-!
# What has been found too old stays so, by any clock (C104)
-/

namespace WebAuthn.Flask

open WebAuthn WebAuthn.Spec WebAuthn.Props

variable {app : App}

theorem expiredRun_snoc (evs : List Event) (e : Event) :
    expiredRun app (evs ++ [e]) = (expiredStep app e (expiredRun app evs)).2 := by
  simp [expiredRun, List.foldl_append]

theorem isTimeout_iff {r : Reply} : isTimeout r = true ↔ r = .text "Timeout" 408 := by
  cases r <;> simp [isTimeout]

/-- No mark is taken back. -/
theorem expired_grow (e : Event) (s : Db × List Nat) {n : Nat} (h : n ∈ s.2) :
    n ∈ (expiredStep app e s).2.2 := by
  have resp : ∀ att f t, n ∈ (expiredResponse app att f t s).2.2 := by
    intro att f t
    unfold expiredResponse
    split
    · dsimp only
      split
      · exact List.mem_append_right _ h
      · exact h
    · dsimp only
      split
      · exact h
      · exact h
  cases e with
  | registrationResponse f t => exact resp true f t
  | authenticationResponse f t => exact resp false f t
  | registrationRequest _ _ _ _ => exact h
  | authenticationRequest _ _ _ => exact h

theorem expired_stay (pre mid : List Event) {n : Nat} (h : n ∈ (expiredRun app pre).2) :
    n ∈ (expiredRun app (pre ++ mid)).2 := by
  induction mid using List.reverseRecOn with
  | nil => simpa using h
  | append_singleton l e ih =>
    rw [← List.append_assoc, expiredRun_snoc]
    exact expired_grow e _ ih

theorem response_not_timeout {att : Bool} {f : Form} {t : Int} {db : Db} {x}
    (h : readResponse app att f t db = .ok x) :
    (if att then registrationResponse app f t db else authenticationResponse app f t db).1 ≠
      .text "Timeout" 408 := by
  have hc : ∀ m (r : Py Unit), m ≠ "Timeout" → conclude m r ≠ .text "Timeout" 408 := by
    intro m r hm he
    unfold conclude at he
    split at he
    · simp [success] at he
    · split at he
      · simp only [Reply.text.injEq] at he; exact hm he.1
      · cases he
  obtain ⟨c, ch, u⟩ := x
  cases att
  · simp only [authenticationResponse, h, Bool.false_eq_true, if_false]
    exact hc _ _ (by decide)
  · simp only [registrationResponse, h, if_true]
    exact hc _ _ (by decide)

/-- What is answered so is marked. -/
theorem timeout_expired {att : Bool} {f : Form} {t : Int} {s : Db × List Nat} {n : Nat} {c : Credential}
    {name : String} (hs : Submits app f n c name)
    (h : (expiredResponse app att f t s).1 = .text "Timeout" 408) :
    n ∈ (expiredResponse app att f t s).2.2 := by
  cases hr : readResponse app att f t s.1 with
  | error r =>
    simp only [expiredResponse, hr] at h ⊢
    rw [if_pos (isTimeout_iff.mpr h)]
    obtain ⟨cid, _, _, h1, h2, -⟩ := hs
    simp [h1, h2]
  | ok x =>
    obtain ⟨c', ch, u⟩ := x
    simp only [expiredResponse, hr] at h ⊢
    split at h
    · rename_i hm
      rw [if_pos hm]
      obtain ⟨n', name', h1, -, h3, -⟩ := readResponse_ok_iff.mp hr
      obtain ⟨rfl, -, -⟩ := submits_unique hs h1
      rw [Option.some.inj (challenge_some h3).2]
      exact hm
    · exact absurd h (response_not_timeout hr)

/-- What is marked is refused. -/
theorem expired_refused {att : Bool} {f : Form} {t : Int} {s : Db × List Nat} {n : Nat} {c : Credential}
    {name : String} (hs : Submits app f n c name) (hm : n ∈ s.2) :
    (expiredResponse app att f t s).1 ≠ success := by
  cases hr : readResponse app att f t s.1 with
  | error r =>
    simp only [expiredResponse, hr]
    rintro rfl
    unfold readResponse at hr
    split at hr
    · split at hr <;> simp [success] at hr
    · split at hr
      · simp [success] at hr
      split at hr
      · simp [success] at hr
      split at hr
      · simp [success] at hr
      split at hr
      · simp [success] at hr
      · cases hr
  | ok x =>
    obtain ⟨c', ch, u⟩ := x
    obtain ⟨n', name', h1, -, h3, -⟩ := readResponse_ok_iff.mp hr
    obtain ⟨rfl, -, -⟩ := submits_unique hs h1
    simp only [expiredResponse, hr]
    rw [if_pos (Option.some.inj (challenge_some h3).2 ▸ hm)]
    simp [success]

/-- **C104** With the marks, a challenge that was found too old stays so, whatever the clock shows. -/
theorem C104_expired (app : App) : StaysOld (expiredReply app) app fun _ => True := by
  rintro pre e mid e' f t t' n c c' name name' - he hs h ⟨hrep, f', he', hf'⟩
  have h1 : n ∈ (expiredRun app (pre ++ e :: mid)).2 := by
    rw [show pre ++ e :: mid = (pre ++ [e]) ++ mid by simp]
    refine expired_stay _ _ ?_
    rw [expiredRun_snoc]
    rcases he with rfl | rfl
    · exact timeout_expired hs h
    · exact timeout_expired hs h
  rcases he' with rfl | rfl
  · exact expired_refused (att := true) (t := t') hf' h1 hrep
  · exact expired_refused (att := false) (t := t') hf' h1 hrep

theorem readResponse_timeout {att : Bool} {f : Form} {t : Int} {db : Db}
    (h : readResponse app att f t db = .error (.text "Timeout" 408)) {n : Nat}
    (hn : f.challengeID.bind app.rowId = some n) :
    ∃ ch ∈ db.challenges, ch.id = n ∧ 60000 < t - ch.timestamp := by
  unfold readResponse at h
  split at h
  · split at h <;> simp at h
  · rename_i cid c name hp
    split at h
    · simp at h
    split at h
    · simp at h
    rename_i ch hch
    split at h
    · simp at h
    split at h
    · rename_i ht
      obtain ⟨h1, h2⟩ := challenge_some hch
      have hcid : f.challengeID = some cid := (parseForm_ok_iff.mp hp).1
      rw [hcid, Option.bind_some, h2] at hn
      cases hn
      exact ⟨ch, h1, rfl, ht⟩
    · cases h

/-- While the marks are of what is too old anyway, they change nothing. -/
theorem expired_step (e : Event) {db : Db} {marks : List Nat} (hk : Keyed db)
    (hm : ∀ n ∈ marks, ∃ ch ∈ db.challenges, ch.id = n ∧ 60000 < timeOf e - ch.timestamp) :
    (expiredStep app e (db, marks)).1 = (step app e db).1 ∧
    (expiredStep app e (db, marks)).2.1 = (step app e db).2 ∧
    ∀ n ∈ (expiredStep app e (db, marks)).2.2, ∃ ch ∈ db.challenges, ch.id = n ∧
      60000 < timeOf e - ch.timestamp := by
  have resp : ∀ att f t, t = timeOf e →
      (expiredResponse app att f t (db, marks)).1 = (if att then registrationResponse app f t db
        else authenticationResponse app f t db).1 ∧
      (expiredResponse app att f t (db, marks)).2.1 = (if att then registrationResponse app f t db
        else authenticationResponse app f t db).2 ∧
      ∀ n ∈ (expiredResponse app att f t (db, marks)).2.2, ∃ ch ∈ db.challenges, ch.id = n ∧
        60000 < timeOf e - ch.timestamp := by
    rintro att f t rfl
    cases hr : readResponse app att f (timeOf e) db with
    | error r =>
      have h1 : (if att then registrationResponse app f (timeOf e) db
          else authenticationResponse app f (timeOf e) db) = (r, db) := by
        cases att
        · simp [authenticationResponse, hr]
        · simp [registrationResponse, hr]
      rw [h1]
      simp only [expiredResponse, hr, true_and]
      intro n hn
      split at hn
      · rename_i ht
        rcases List.mem_append.mp hn with hn | hn
        · rw [isTimeout_iff.mp ht] at hr
          exact readResponse_timeout hr (by simpa using hn)
        · exact hm n hn
      · exact hm n hn
    | ok x =>
      obtain ⟨c, ch, u⟩ := x
      obtain ⟨n', name', h1, -, h3, -, h5⟩ := readResponse_ok_iff.mp hr
      have hno : ch.id ∉ marks := by
        intro hmem
        obtain ⟨ch', h6, h7, h8⟩ := hm _ hmem
        have h9 := (mem_tooOld hk h6 (timeOf e)).mpr h8
        rw [h7, mem_tooOld hk (challenge_some h3).1] at h9
        simp only [timeout] at h5
        omega
      simp only [expiredResponse, hr]
      rw [if_neg hno]
      exact ⟨rfl, rfl, hm⟩
  cases e with
  | registrationResponse f t => exact resp true f t rfl
  | authenticationResponse f t => exact resp false f t rfl
  | registrationRequest _ _ _ _ => exact ⟨rfl, rfl, hm⟩
  | authenticationRequest _ _ _ => exact ⟨rfl, rfl, hm⟩

theorem at_timeOf (e : Event) : At e (timeOf e) := by cases e <;> constructor

/-- The marks are of challenges that had become too old by some time. -/
theorem expired_run {evs : List Event} (hc : ClockForward evs) :
    (expiredRun app evs).1 = run app evs ∧
    ∀ n ∈ (expiredRun app evs).2, ∃ e ∈ evs, ∃ ch ∈ (run app evs).challenges, ch.id = n ∧
      60000 < timeOf e - ch.timestamp := by
  induction evs using List.reverseRecOn with
  | nil => exact ⟨rfl, fun n hn => by cases hn⟩
  | append_singleton evs e ih =>
    rw [ClockForward, List.pairwise_append] at hc
    obtain ⟨h1, h2⟩ := ih hc.1
    have h3 := expired_step (app := app) e (db := run app evs) (marks := (expiredRun app evs).2)
      (C64_consistent_history app evs).keyed (by
        intro n hn
        obtain ⟨e0, he0, ch, hch, hid, hold⟩ := h2 n hn
        have := hc.2.2 e0 he0 e (by simp) _ _ (at_timeOf e0) (at_timeOf e)
        exact ⟨ch, hch, hid, by omega⟩)
    rw [← h1, Prod.mk.eta, h1] at h3
    rw [expiredRun_snoc, run_snoc]
    refine ⟨h3.2.1, fun n hn => ?_⟩
    obtain ⟨ch, hch, hid, hold⟩ := h3.2.2 n hn
    obtain ⟨-, cs, h4, -⟩ := run_prefix app evs [e]
    rw [run_snoc] at h4
    exact ⟨e, by simp, ch, by rw [h4]; exact List.mem_append_left _ hch, hid, hold⟩

/-- **C104** While the clock goes forward, the marks change nothing. -/
theorem C104_expired_forward {app : App} {evs : List Event} {e : Event} (hc : ClockForward (evs ++ [e])) :
    expiredReply app evs e = reply app evs e ∧
    (expiredRun app (evs ++ [e])).1 = run app (evs ++ [e]) := by
  refine ⟨?_, (expired_run hc).1⟩
  rw [ClockForward, List.pairwise_append] at hc
  obtain ⟨h1, h2⟩ := expired_run (app := app) hc.1
  have h3 := expired_step (app := app) e (db := run app evs) (marks := (expiredRun app evs).2)
    (C64_consistent_history app evs).keyed (by
      intro n hn
      obtain ⟨e0, he0, ch, hch, hid, hold⟩ := h2 n hn
      have := hc.2.2 e0 he0 e (by simp) _ _ (at_timeOf e0) (at_timeOf e)
      exact ⟨ch, hch, hid, by omega⟩)
  rw [← h1, Prod.mk.eta, h1] at h3
  exact h3.1

end WebAuthn.Flask
