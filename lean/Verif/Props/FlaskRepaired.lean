import Verif.Model.FlaskRepaired
import Verif.Props.FlaskDemo

/-!
# The repaired example application meets C51
-/

namespace WebAuthn.Flask

open WebAuthn WebAuthn.Spec WebAuthn.Props

theorem repairedRun_snoc (app : App) (evs : List Event) (e : Event) :
    repairedRun app (evs ++ [e]) = (repairedStep app e (repairedRun app evs)).2 := by
  simp [repairedRun, List.foldl_append]

theorem readResponse_error {app : App} {att : Bool} {f : Form} {now : Int} {db : Db} {r : Reply}
    (h : readResponse app att f now db = .error r) : r ≠ success := by
  unfold readResponse at h
  split at h
  · split at h <;> cases h <;> simp [success]
  · split at h
    · cases h; simp [success]
    split at h
    · cases h; simp [success]
    split at h
    · cases h; simp [success]
    split at h
    · cases h; simp [success]
    · cases h

theorem repairedResponse_cases (app : App) (att : Bool) (f : Form) (now : Int)
    (respond : Db → Reply × Db) (s : RepairedDb) :
    (∃ r, r ≠ success ∧ repairedResponse app att f now respond s = (r, s)) ∨
    (∃ c ch u, readResponse app att f now s.db = .ok (c, ch, u) ∧ ch.id ∉ s.used ∧ ch.userId = u.id ∧
      (respond s.db).1 = success ∧
      repairedResponse app att f now respond s = (success, ⟨(respond s.db).2, ch.id :: s.used⟩)) ∨
    (respond s.db).1 ≠ success ∧
      repairedResponse app att f now respond s = ((respond s.db).1, ⟨(respond s.db).2, s.used⟩) := by
  cases hr : readResponse app att f now s.db with
  | error r => exact Or.inl ⟨r, readResponse_error hr, by simp only [repairedResponse, hr]⟩
  | ok x =>
    obtain ⟨c, ch, u⟩ := x
    simp only [repairedResponse, hr]
    split
    · exact Or.inl ⟨_, by simp [success], rfl⟩
    rename_i h1
    split
    · exact Or.inl ⟨_, by simp [success], rfl⟩
    rename_i h2
    split
    · rename_i db h
      exact Or.inr (Or.inl ⟨c, ch, u, rfl, h1, not_not.mp h2, by rw [h]; rfl, by rw [h]⟩)
    · rename_i r db hne h
      exact Or.inr (Or.inr ⟨fun he => hne (by rw [h] at he; exact he), by rw [h]⟩)

/-- The database of the repaired application is that of the application after a
part of the history. -/
theorem repaired_kept (app : App) (evs : List Event) {kept : List Event} {s : RepairedDb}
    (h : s.db = run app kept) :
    ∃ more, (evs.foldl (fun s e => (repairedStep app e s).2) s).db = run app (kept ++ more) ∧
      ∀ n ∈ s.used, n ∈ (evs.foldl (fun s e => (repairedStep app e s).2) s).used := by
  induction evs generalizing kept s with
  | nil => exact ⟨[], by simpa using h, fun n hn => hn⟩
  | cons e evs ih =>
    have key : ∃ more, (repairedStep app e s).2.db = run app (kept ++ more) ∧
        ∀ n ∈ s.used, n ∈ (repairedStep app e s).2.used := by
      have resp : ∀ att f now (respond : Db → Reply × Db),
          (respond s.db).2 = run app (kept ++ [e]) →
          ∃ more, (repairedResponse app att f now respond s).2.db = run app (kept ++ more) ∧
            ∀ n ∈ s.used, n ∈ (repairedResponse app att f now respond s).2.used := by
        intro att f now respond hresp
        rcases repairedResponse_cases app att f now respond s with ⟨r, -, h'⟩ |
          ⟨c, ch, u, -, -, -, -, h'⟩ | ⟨-, h'⟩ <;> rw [h']
        · exact ⟨[], by simpa using h, fun n hn => hn⟩
        · exact ⟨[e], hresp, fun n hn => List.mem_cons_of_mem _ hn⟩
        · exact ⟨[e], hresp, fun n hn => hn⟩
      cases e with
      | registrationRequest n hd ch t =>
        exact ⟨[.registrationRequest n hd ch t], by rw [run_snoc, ← h]; rfl, fun n hn => hn⟩
      | authenticationRequest n ch t =>
        exact ⟨[.authenticationRequest n ch t], by rw [run_snoc, ← h]; rfl, fun n hn => hn⟩
      | registrationResponse f t => exact resp _ _ _ _ (by rw [run_snoc, ← h]; rfl)
      | authenticationResponse f t => exact resp _ _ _ _ (by rw [run_snoc, ← h]; rfl)
    obtain ⟨more, h1, h2⟩ := key
    obtain ⟨more', h3, h4⟩ := ih h1
    rw [List.append_assoc] at h3
    exact ⟨_, h3, fun n hn => h4 n (h2 n hn)⟩

theorem repairedRun_append (app : App) (evs evs' : List Event) :
    repairedRun app (evs ++ evs') =
      evs'.foldl (fun s e => (repairedStep app e s).2) (repairedRun app evs) := by
  simp [repairedRun, List.foldl_append]

/-- What a success of the repaired application means. -/
theorem repaired_success {app : App} {evs : List Event} {e : Event} {t : Int} {n : Nat} {c : Credential}
    {name : String} (h : SucceedsBy (repairedReply app) app evs e t n c name) :
    ∃ ch u, ch ∈ (repairedRun app evs).db.challenges ∧ ch.id = n ∧
      u ∈ (repairedRun app evs).db.users ∧ u.username = name ∧ ch.userId = u.id ∧
      n ∉ (repairedRun app evs).used ∧ n ∈ (repairedRun app (evs ++ [e])).used := by
  obtain ⟨hs, f, he, hf⟩ := h
  have key : ∀ att (respond : Db → Reply × Db),
      repairedStep app e (repairedRun app evs) =
        repairedResponse app att f t respond (repairedRun app evs) →
      ∃ ch u, ch ∈ (repairedRun app evs).db.challenges ∧ ch.id = n ∧
        u ∈ (repairedRun app evs).db.users ∧ u.username = name ∧ ch.userId = u.id ∧
        n ∉ (repairedRun app evs).used ∧ n ∈ (repairedRun app (evs ++ [e])).used := by
    intro att respond hst
    unfold repairedReply at hs
    rw [hst] at hs
    rw [repairedRun_snoc, hst]
    rcases repairedResponse_cases app att f t respond (repairedRun app evs) with ⟨r, hr, h'⟩ |
      ⟨c', ch, u, h1, h2, h3, -, h'⟩ | ⟨hr, h'⟩ <;> rw [h'] at hs ⊢
    · exact absurd hs hr
    · obtain ⟨n', name', h4, -, h5, h6, -⟩ := readResponse_ok_iff.mp h1
      obtain ⟨rfl, rfl, rfl⟩ := submits_unique hf h4
      obtain ⟨h7, h8⟩ := challenge_some h5
      obtain rfl := Option.some.inj h8
      obtain ⟨h9, h10⟩ := userNamed_some h6
      exact ⟨ch, u, h7, rfl, h9, h10, h3, h2, List.mem_cons_self⟩
    · exact absurd hs hr
  rcases he with rfl | rfl
  · exact key true _ rfl
  · exact key false _ rfl

/-- C51 for the repaired application: challenges are single use. -/
theorem C51_repaired_single_use (app : App) : SingleUse (repairedReply app) app := by
  intro pre e mid e' t t' n c c' name name' h h'
  obtain ⟨-, -, -, -, -, -, -, -, h1⟩ := repaired_success h
  obtain ⟨-, -, -, -, -, -, -, h2, -⟩ := repaired_success h'
  refine h2 ?_
  rw [show pre ++ e :: mid = (pre ++ [e]) ++ mid by simp, repairedRun_append]
  obtain ⟨kept, hk, -⟩ := repaired_kept app (pre ++ [e]) (kept := []) (s := {}) rfl
  obtain ⟨-, -, hu⟩ := repaired_kept app mid hk
  exact hu n h1

/-- C51 for the repaired application: challenges are good only for the user they
were issued to. -/
theorem C51_repaired_user_bound (app : App) : UserBound (repairedReply app) app := by
  intro evs e t n c name pre e' ch t' name' h ho hi
  obtain ⟨row, u, h1, h2, h3, h4, h5, -, -⟩ := repaired_success h
  obtain ⟨post, rfl⟩ := ho
  obtain ⟨kept, hk, -⟩ := repaired_kept app pre (kept := []) (s := {}) rfl
  rw [List.nil_append] at hk
  have hk : (repairedRun app pre).db = run app kept := hk
  have hiss : Issues app kept e' n ch t' name' := by
    obtain ⟨⟨key, v, hr⟩, hd⟩ := hi
    refine ⟨⟨key, v, ?_⟩, hd⟩
    rw [← hr]
    unfold reply repairedReply
    rw [← hk]
    rcases hd with ⟨_, rfl⟩ | rfl <;> rfl
  have hk' : (repairedRun app (pre ++ [e'])).db = run app (kept ++ [e']) := by
    rw [repairedRun_snoc, run_snoc, ← hk]
    rcases hi.2 with ⟨_, rfl⟩ | rfl <;> rfl
  obtain ⟨more, hm, -⟩ := repaired_kept app post hk'
  rw [← repairedRun_append, List.append_assoc, List.append_assoc, List.singleton_append,
    List.singleton_append] at hm
  rw [hm] at h1 h3
  have inv := inv_run app (kept ++ e' :: more)
  obtain ⟨v, hv1, hv2, hv3⟩ := issued_row (evs := kept ++ e' :: more) ⟨more, rfl⟩ hiss
  have hrow : row = ⟨n, ch, t', v.id⟩ := by
    have := inv.find_challenge h1
    rw [h2, show n = (⟨n, ch, t', v.id⟩ : Challenge).id from rfl, inv.find_challenge hv3] at this
    exact (Option.some.inj this).symm
  subst hrow
  rw [← hv2, ← h4]
  exact congrArg User.username (inv.userId_unique hv1 h3 h5)

/-- The repaired application answers with success exactly when the application
does in the same state and the challenge is unused and of the user. -/
theorem C51_repaired_serves {app : App} {evs : List Event} {f : Form} {t : Int} {n : Nat}
    {c : Credential} {name : String} (hf : Submits app f n c name) :
    (repairedReply app evs (.registrationResponse f t) = success ↔
      (registrationResponse app f t (repairedRun app evs).db).1 = success ∧
      n ∉ (repairedRun app evs).used ∧
      ∃ ch u, (repairedRun app evs).db.challenge (some n) = some ch ∧
        (repairedRun app evs).db.userNamed name = some u ∧ ch.userId = u.id) ∧
    (repairedReply app evs (.authenticationResponse f t) = success ↔
      (authenticationResponse app f t (repairedRun app evs).db).1 = success ∧
      n ∉ (repairedRun app evs).used ∧
      ∃ ch u, (repairedRun app evs).db.challenge (some n) = some ch ∧
        (repairedRun app evs).db.userNamed name = some u ∧ ch.userId = u.id) := by
  have key : ∀ att (respond : Db → Reply × Db),
      (∀ db r, readResponse app att f t db = .error r → respond db = (r, db)) →
      ((repairedResponse app att f t respond (repairedRun app evs)).1 = success ↔
        (respond (repairedRun app evs).db).1 = success ∧ n ∉ (repairedRun app evs).used ∧
        ∃ ch u, (repairedRun app evs).db.challenge (some n) = some ch ∧
          (repairedRun app evs).db.userNamed name = some u ∧ ch.userId = u.id) := by
    intro att respond hresp
    constructor
    · intro hs
      rcases repairedResponse_cases app att f t respond (repairedRun app evs) with ⟨r, hr, h'⟩ |
        ⟨c', ch, u, h1, h2, h3, h4, h'⟩ | ⟨hr, h'⟩ <;> rw [h'] at hs
      · exact absurd hs hr
      · obtain ⟨n', name', h5, -, h6, h7, -⟩ := readResponse_ok_iff.mp h1
        obtain ⟨rfl, rfl, rfl⟩ := submits_unique hf h5
        obtain ⟨-, h8⟩ := challenge_some h6
        obtain rfl := Option.some.inj h8
        exact ⟨h4, h2, ch, u, h6, h7, h3⟩
      · exact absurd hs hr
    · rintro ⟨hs, hn, ch, u, h1, h2, h3⟩
      cases hr : readResponse app att f t (repairedRun app evs).db with
      | error r =>
        rw [hresp _ _ hr] at hs
        exact absurd hs (readResponse_error hr)
      | ok x =>
        obtain ⟨c', ch', u'⟩ := x
        obtain ⟨n', name', h5, -, h6, h7, -⟩ := readResponse_ok_iff.mp hr
        obtain ⟨rfl, rfl, rfl⟩ := submits_unique hf h5
        rw [h1] at h6
        rw [h2] at h7
        obtain rfl := Option.some.inj h6
        obtain rfl := Option.some.inj h7
        obtain ⟨-, h8⟩ := challenge_some h1
        obtain rfl := Option.some.inj h8
        simp only [repairedResponse, hr]
        rw [if_neg hn, if_neg (not_not.mpr h3)]
        split
        · rfl
        · rename_i r db hne h
          rw [h] at hs
          exact hs
  exact ⟨key true _ fun db r h => by simp only [registrationResponse, h],
    key false _ fun db r h => by simp only [authenticationResponse, h]⟩

theorem repaired_two :
    repairedRun Run.app [Run.e1, Run.e2] = ⟨run Run.app [Run.e1, Run.e2], []⟩ := rfl

theorem reply_registration (app : App) (evs : List Event) (f : Form) (t : Int) :
    (registrationResponse app f t (run app evs)).1 = reply app evs (.registrationResponse f t) := rfl

/-- The repaired application still serves Ada. -/
theorem repaired_run : repairedReply Run.app [Run.e1, Run.e2] Run.e3 = success := by
  refine (C51_repaired_serves (app := Run.app) (evs := [Run.e1, Run.e2]) (t := 5000)
    (Run.form1 (Run.regCredential Run.challenge1) "ada")).1.mpr ⟨?_, ?_, ?_⟩
  · rw [repaired_two, reply_registration]
    exact Run.reply3
  · rw [repaired_two]
    simp
  · rw [repaired_two]
    exact ⟨⟨1, Run.challenge1, 0, 1⟩, ⟨1, "ada", Run.handle1⟩, rfl, rfl, rfl⟩

end WebAuthn.Flask
