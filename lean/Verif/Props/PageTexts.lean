import Verif.Props.PageNamed
import Verif.Spec.PageTexts

/-!
# C78: what the page says, however flows overlap
-/

namespace WebAuthn.Flask.Page

open WebAuthn WebAuthn.Spec

variable {own : Bool} {app : App} {w : World} {acts : List Act}

theorem MaySay.mono {l l' : List Note} {s : String} (h : MaySay l s) (hl : ∀ n ∈ l, n ∈ l') : MaySay l' s := by
  cases h with
  | nothing => exact .nothing
  | noRegistration => exact .noRegistration
  | noAuthentication => exact .noAuthentication
  | registering i n h => exact .registering i n (hl _ h)
  | creating i n h => exact .creating i n (hl _ h)
  | attesting i n h => exact .attesting i n (hl _ h)
  | registered i n h => exact .registered i n (hl _ h)
  | notRegistered i n h => exact .notRegistered i n (hl _ h)
  | requesting i n h => exact .requesting i n (hl _ h)
  | asserting i n h => exact .asserting i n (hl _ h)
  | authorized i n h => exact .authorized i n (hl _ h)
  | notAuthorized i n h => exact .notAuthorized i n (hl _ h)

theorem maySay_signal {i : Nat} {fl : Flow} {s : Signal}
    (h : MaySay w.notes (resume own fl.button fl.point s w.page).1.status) :
    MaySay (w.signal own i fl s).notes (w.signal own i fl s).page.status := h.mono notes_signal

theorem maySay_act (h : MaySay w.notes w.page.status) (hw : Sound app w) (hn : NamesOk w) (a : Act) :
    MaySay (w.act own app a).notes (w.act own app a).page.status := by
  cases a with
  | click b name =>
    cases b
    · exact .registering w.flows.length name (by simp [World.act])
    · exact .requesting w.flows.length name (by simp [World.act])
  | serve i hd ch t =>
    simp only [World.act]
    split
    · split <;> exact h
    · exact h
  | other e => exact h
  | arrive i =>
    simp only [World.act]
    split
    · rename_i b p r hi
      have old := hw.flows i _ hi
      apply maySay_signal
      cases p with
      | request n =>
        by_cases hr : ok r = true
        · simpa [resume, hr] using h
        · simp only [resume, hr]
          cases b
          · exact .noRegistration
          · exact .noAuthentication
      | body n r' => cases (old.body n r' rfl).2.2
      | credential n r' => obtain ⟨-, -, -, opts, ho⟩ := old.credential n r' rfl; cases ho
      | response f =>
        obtain ⟨m, hm⟩ := hn.flows i _ hi trivial
        obtain ⟨n, h1, h2⟩ := hn.responses i _ f hi rfl
        dsimp only at hm h2
        have key : ∃ n', Clicked w b n' ∧ shown (if own then f.username else (w.page.slots b).username) = n' := by
          cases own
          · exact ⟨m, hn.slots b m hm, by simp only [Bool.false_eq_true, if_false, hm]; rfl⟩
          · exact ⟨n, h2, by simp only [if_true, h1]; rfl⟩
        obtain ⟨n', ⟨j, hj⟩, hx⟩ := key
        simp only [resume, afterResponse, hx]
        split <;> cases b
        · exact .registered j n' hj
        · exact .authorized j n' hj
        · exact .notRegistered j n' hj
        · exact .notAuthorized j n' hj
      | over => cases old.over rfl
    · exact h
  | read i =>
    simp only [World.act]
    split
    · rename_i b n r wi hi
      obtain ⟨hc, -, -⟩ := (hw.flows i _ hi).body n r rfl
      apply maySay_signal
      cases r with
      | text m s => exact h
      | crash e => exact h
      | json v =>
        cases ho : optionsFor b (.json v) with
        | none =>
          simp only [resume, afterBody, ho, status_set]
          exact h
        | some opts =>
          simp only [resume, afterBody, ho]
          cases b
          · exact .creating i n hc
          · exact h
    · exact h
  | credential i c =>
    simp only [World.act]
    split
    · rename_i b n r wi hi
      obtain ⟨hc, -⟩ := (hw.flows i _ hi).credential n r rfl
      obtain ⟨m, hm⟩ := hn.flows i _ hi trivial
      dsimp only at hm hc
      apply maySay_signal
      have key : ∃ n', Clicked w b n' ∧ (if own then n else shown (((w.page.set b
          { w.page.slots b with credential := c }).slots b).username)) = n' := by
        cases own
        · refine ⟨m, hn.slots b m hm, ?_⟩
          simp only [Bool.false_eq_true, if_false, slots_set_self, hm]
          rfl
        · exact ⟨n, ⟨i, hc⟩, rfl⟩
      obtain ⟨n', ⟨j, hj⟩, hx⟩ := key
      simp only [resume, afterCredential, hx]
      split <;> cases b
      · exact .attesting j n' hj
      · exact .asserting j n' hj
      · exact .attesting j n' hj
      · exact .asserting j n' hj
    · exact h
  | reject i =>
    simp only [World.act]
    split
    · rename_i fl hi
      apply maySay_signal
      rw [show resume own fl.button fl.point .rejected w.page = (w.page, .over, none) by cases fl.point <;> rfl]
      exact h
    · exact h

/-- C78: whatever happens, the page shows one of its texts, for a name with which the button of the text was clicked. It
never shows `null` for a name. -/
theorem C78_texts (own : Bool) (app : App) (acts : List Act) :
    MaySay (world own app acts).notes (world own app acts).page.status := by
  induction acts using List.reverseRecOn with
  | nil => exact .nothing
  | append_singleton acts a ih =>
    rw [world_snoc]
    exact maySay_act ih (sound own app acts) (names_ok own app acts) a

/-- A click, and a reply that never comes. -/
example (app : App) : (world false app [.click .register "ada", .reject 0]).page.status = "Registering username ada." := by
  rfl

end WebAuthn.Flask.Page
