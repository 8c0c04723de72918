import Verif.Props.PageFlowHonest

/-!
# C78: whose names the page uses, however flows overlap
-/

namespace WebAuthn.Flask.Page

open WebAuthn WebAuthn.Spec

variable {own : Bool} {app : App} {w w' : World} {acts : List Act}

/-- Someone clicked the button with the name. -/
def Clicked (w : World) (b : Button) (name : String) : Prop := ∃ i, .clicked i b name ∈ w.notes

structure NamesOk (w : World) : Prop where
  slots : ∀ b n, (w.page.slots b).username = some n → Clicked w b n
  flows : ∀ (i : Nat) (fl : Flow), w.flows[i]? = some fl → Holding fl.point → ∃ n, (w.page.slots fl.button).username = some n
  responses : ∀ (i : Nat) (fl : Flow) (f : Form), w.flows[i]? = some fl → fl.point = .response f →
    ∃ n, f.username = some n ∧ Clicked w fl.button n
  forms : ∀ i f, .submitted i f ∈ w.notes → ∃ b n, f.username = some n ∧ Clicked w b n
  told : ∀ b n, Telling w.page.status b n → Clicked w b n

theorem Clicked.mono {b : Button} {n : String} (h : Clicked w b n) (hn : ∀ n ∈ w.notes, n ∈ w'.notes) :
    Clicked w' b n := h.imp fun _ => hn _

theorem NamesOk.signal (h : NamesOk w) {i : Nat} {fl : Flow} {s : Signal}
    (hs : ∀ b n, ((resume own fl.button fl.point s w.page).1.slots b).username = some n → Clicked w b n)
    (hk : ∀ b n, (w.page.slots b).username = some n →
      ∃ n', ((resume own fl.button fl.point s w.page).1.slots b).username = some n')
    (hi : Holding (resume own fl.button fl.point s w.page).2.1 →
      ∃ n, ((resume own fl.button fl.point s w.page).1.slots fl.button).username = some n)
    (hf : ∀ f, (resume own fl.button fl.point s w.page).2.1 = .response f →
      ∃ n, f.username = some n ∧ Clicked w fl.button n)
    (hc : ∀ f, (resume own fl.button fl.point s w.page).2.2 = some (.submit f) →
      (resume own fl.button fl.point s w.page).2.1 = .response f)
    (ht : ∀ b n, Telling (resume own fl.button fl.point s w.page).1.status b n → Clicked w b n) :
    NamesOk (w.signal own i fl s) where
  slots b n hb := (hs b n hb).mono notes_signal
  flows j fl' hj hh := by
    rcases getElem?_set hj with ⟨rfl, rfl⟩ | ⟨-, hj⟩
    · exact hi hh
    · obtain ⟨n, hn⟩ := h.flows j fl' hj hh
      exact hk _ n hn
  responses j fl' f hj hp := by
    rcases getElem?_set hj with ⟨rfl, rfl⟩ | ⟨-, hj⟩
    · obtain ⟨n, h1, h2⟩ := hf f hp
      exact ⟨n, h1, h2.mono notes_signal⟩
    · obtain ⟨n, h1, h2⟩ := h.responses j fl' f hj hp
      exact ⟨n, h1, h2.mono notes_signal⟩
  forms j f hj := by
    simp only [World.signal, List.mem_append] at hj
    rcases hj with (hj | hj) | hj
    · obtain ⟨b, n, h1, h2⟩ := h.forms j f hj
      exact ⟨b, n, h1, h2.mono notes_signal⟩
    · exact absurd hj submitted_noteSignal
    · obtain ⟨rfl, hf'⟩ := submitted_noteCall hj
      obtain ⟨n, h1, h2⟩ := hf f (hc f hf')
      exact ⟨_, n, h1, h2.mono notes_signal⟩
  told b n hb := (ht b n hb).mono notes_signal

/-- Nothing happens but that the flow ends or says something. -/
theorem NamesOk.quiet (h : NamesOk w) {i : Nat} {fl : Flow} {s : Signal} {g : Globals} {p : Point}
    (hx : resume own fl.button fl.point s w.page = (g, p, none)) (hp : ¬ Holding p)
    (hg : ∀ b, (g.slots b).username = (w.page.slots b).username)
    (ht : ∀ b n, Telling g.status b n → Clicked w b n) : NamesOk (w.signal own i fl s) := by
  refine h.signal ?_ ?_ ?_ ?_ ?_ ?_ <;> rw [hx]
  · exact fun b n hb => h.slots b n (hg b ▸ hb)
  · exact fun b n hb => ⟨n, (hg b).trans hb⟩
  · exact fun hh => absurd hh hp
  · rintro f rfl
    exact absurd trivial hp
  · exact nofun
  · exact ht

theorem NamesOk.act (h : NamesOk w) (hw : Sound app w) (a : Act) : NamesOk (w.act own app a) := by
  cases a with
  | click b name =>
    have up : ∀ n ∈ w.notes, n ∈ (w.act own app (.click b name)).notes := by simp +contextual [World.act]
    have same : ∀ b', ((w.act own app (.click b name)).page.slots b').username = (w.page.slots b').username :=
      fun b' => (sameSlots_say b' w.page _).2
    refine ⟨fun b' n hb => (h.slots b' n (same b' ▸ hb)).mono up, fun j fl hj hh => ?_, fun j fl f hj hp => ?_,
      fun j f hj => ?_, fun b' n hb => absurd hb asking_silent⟩
    · rcases getElem?_snoc hj with ⟨rfl, rfl⟩ | hj
      · exact hh.elim
      · rw [same]
        exact h.flows j fl hj hh
    · rcases getElem?_snoc hj with ⟨rfl, rfl⟩ | hj
      · cases hp
      · obtain ⟨n, h1, h2⟩ := h.responses j fl f hj hp
        exact ⟨n, h1, h2.mono up⟩
    · obtain ⟨b', n, h1, h2⟩ := h.forms j f (by simpa [World.act] using hj)
      exact ⟨b', n, h1, h2.mono up⟩
  | serve i hd ch t =>
    simp only [World.act]
    split
    · rename_i b p c hi
      split
      · exact h
      · refine ⟨h.slots, fun j fl hj hh => ?_, fun j fl f hj hp => ?_, h.forms, h.told⟩
        · rcases getElem?_set hj with ⟨rfl, rfl⟩ | ⟨-, hj⟩
          · have q := h.flows j _ hi
            exact q hh
          · exact h.flows j fl hj hh
        · rcases getElem?_set hj with ⟨rfl, rfl⟩ | ⟨-, hj⟩
          · have q := h.responses j _ f hi
            exact q hp
          · exact h.responses j fl f hj hp
    · exact h
  | other e => exact ⟨h.slots, h.flows, h.responses, h.forms, h.told⟩
  | arrive i =>
    simp only [World.act]
    split
    · rename_i b p r hi
      have old := hw.flows i _ hi
      cases p with
      | request n =>
        by_cases hr : ok r = true
        · exact h.quiet (g := w.page) (p := .body n r) (by simp [resume, hr]) id (fun _ => rfl) h.told
        · exact h.quiet (g := w.page.say (askedInVain b)) (p := .over) (by simp [resume, hr]) id
            (fun b' => (sameSlots_say b' w.page _).2) fun b' n' hb => absurd hb vain_silent
      | body n r' => cases (old.body n r' rfl).2.2
      | credential n r' => obtain ⟨-, -, -, opts, ho⟩ := old.credential n r' rfl; cases ho
      | response f =>
        obtain ⟨m, hm⟩ := h.flows i _ hi trivial
        obtain ⟨n, h1, h2⟩ := h.responses i _ f hi rfl
        dsimp only at hm h2
        refine h.quiet (g := afterResponse own b f w.page r) (p := .over) rfl id (fun b' => ?_) fun b' n' hb => ?_
        · simp only [afterResponse]
          split <;> exact (sameSlots_say b' w.page _).2
        · simp only [afterResponse] at hb
          split at hb
          · obtain ⟨rfl, rfl⟩ := telling_success.mp hb
            cases own
            · simp only [Bool.false_eq_true, if_false, hm]
              exact h.slots _ m hm
            · simp only [if_true, h1]
              exact h2
          · exact absurd hb failure_silent
      | over => cases old.over rfl
    · exact h
  | read i =>
    simp only [World.act]
    split
    · rename_i b n r wi hi
      obtain ⟨hc, -, -⟩ := (hw.flows i _ hi).body n r rfl
      cases r with
      | text m s => exact h.quiet (g := w.page) (p := .over) rfl id (fun _ => rfl) h.told
      | crash e => exact h.quiet (g := w.page) (p := .over) rfl id (fun _ => rfl) h.told
      | json v =>
        cases ho : optionsFor b (.json v) with
        | none =>
          refine h.quiet (g := w.page.set b { w.page.slots b with request := v }) (p := .over)
            (by simp [resume, afterBody, ho]) id (fun b' => by cases b <;> cases b' <;> rfl) fun b' n' hb => ?_
          rw [status_set] at hb
          exact h.told b' n' hb
        | some opts =>
          have key : ∃ g, resume own b (.body n (.json v)) .body w.page = (g, .credential n (.json v),
              some (.authenticator opts)) ∧ (g.slots b).username = some n ∧
              (∀ b', b' ≠ b → (g.slots b').username = (w.page.slots b').username) ∧
              ∀ b' n', Telling g.status b' n' → Telling w.page.status b' n' := by
            cases b with
            | register =>
              refine ⟨_, by simp only [resume, afterBody, ho]; rfl, rfl, fun b' hb => ?_,
                fun b' n' hb => absurd hb creating_silent⟩
              cases b'
              · exact absurd rfl hb
              · rfl
            | authenticate =>
              refine ⟨_, by simp only [resume, afterBody, ho]; rfl, rfl, fun b' hb => ?_, fun b' n' hb => ?_⟩
              · cases b'
                · rfl
                · exact absurd rfl hb
              · exact hb
          obtain ⟨g, hx, hn, hne, ht⟩ := key
          refine h.signal ?_ ?_ ?_ ?_ ?_ ?_ <;> simp only [hx]
          · intro b' n' hb
            by_cases e : b' = b
            · subst e
              cases hn.symm.trans hb
              exact ⟨i, hc⟩
            · exact h.slots b' n' (hne b' e ▸ hb)
          · intro b' n' hb
            by_cases e : b' = b
            · subst e
              exact ⟨n, hn⟩
            · exact ⟨n', (hne b' e).trans hb⟩
          · exact fun _ => ⟨n, hn⟩
          · exact nofun
          · exact nofun
          · exact fun b' n' hb => h.told b' n' (ht b' n' hb)
    · exact h
  | credential i c =>
    simp only [World.act]
    split
    · rename_i b n r wi hi
      obtain ⟨hc, -⟩ := (hw.flows i _ hi).credential n r rfl
      obtain ⟨m, hm⟩ := h.flows i _ hi trivial
      dsimp only at hm hc
      have same : ∀ s b', (((w.page.set b { w.page.slots b with credential := c }).say s).slots b').username =
          (w.page.slots b').username := fun s b' => (sameSlots_credential b' b w.page c s).2
      have name : ∃ r' n', Clicked w b n' ∧ resume own b (.credential n r) (.credential c) w.page =
          (let g := (w.page.set b { w.page.slots b with credential := c }).say (submittingText b n')
          match c.bind fun c => credentialForm b r' c n' with
          | none => (g, .over, none)
          | some f => (g, .response f, some (.submit f))) := by
        cases own
        · refine ⟨.json (w.page.slots b).request, m, h.slots _ m hm, ?_⟩
          simp only [resume, afterCredential, slots_set_self, hm]
          rfl
        · exact ⟨r, n, ⟨i, hc⟩, rfl⟩
      obtain ⟨r', n', hn', hx⟩ := name
      cases hy : (c.bind fun c => credentialForm b r' c n') with
      | none =>
        rw [hy] at hx
        exact h.quiet hx id (same _) fun b' n'' hb => absurd hb submitting_silent
      | some f =>
        rw [hy] at hx
        obtain ⟨c', -, hf⟩ := Option.bind_eq_some_iff.mp hy
        refine h.signal ?_ ?_ ?_ ?_ ?_ ?_ <;> simp only [hx]
        · exact fun b' n'' hb => h.slots b' n'' (same _ b' ▸ hb)
        · exact fun b' n'' hb => ⟨n'', (same _ b').trans hb⟩
        · exact fun _ => ⟨m, (same _ b).trans hm⟩
        · rintro f' ⟨⟩
          exact ⟨n', credentialForm_name hf, hn'⟩
        · rintro f' ⟨⟩
          rfl
        · exact fun b' n'' hb => absurd hb submitting_silent
    · exact h
  | reject i =>
    simp only [World.act]
    split
    · rename_i fl hi
      exact h.quiet (g := w.page) (p := .over) (by cases fl.point <;> rfl) id (fun _ => rfl) h.told
    · exact h

theorem names_ok (own : Bool) (app : App) (acts : List Act) : NamesOk (world own app acts) := by
  induction acts using List.reverseRecOn with
  | nil =>
    refine ⟨fun b n h => ?_, fun i fl hi => by simp [world] at hi, fun i fl f hi => by simp [world] at hi,
      fun i f hf => by simp [world] at hf, fun b n hb => absurd hb empty_silent⟩
    cases b <;> cases h
  | append_singleton acts a ih => rw [world_snoc]; exact ih.act (sound own app acts) a

/-- C78: however flows overlap, the page tells of a success only for a name with which the button was clicked. In
particular it never tells of a success of `null` when nobody of that name clicked. -/
theorem C78_clicked_told {b : Button} {name : String} (h : Tells (world own app acts) b name) :
    ∃ i, .clicked i b name ∈ (world own app acts).notes :=
  (names_ok own app acts).told b name (telling_iff.mp h)

/-- C78: however flows overlap, every form that the page submits is for a name with which a button was clicked. -/
theorem C78_clicked_form {i : Nat} {f : Form} (h : .submitted i f ∈ (world own app acts).notes) :
    ∃ j b name, f.username = some name ∧ .clicked j b name ∈ (world own app acts).notes := by
  obtain ⟨b, n, h1, j, h2⟩ := (names_ok own app acts).forms i f h
  exact ⟨j, b, n, h1, h2⟩

/-- The page tells of successes and submits forms, also when flows disturb each other. -/
example : (∃ app acts b name, Tells (world false app acts) b name) ∧
    ∃ app acts i f, .submitted i f ∈ (world false app acts).notes := by
  constructor <;> by_contra hn
  · obtain ⟨app, acts, -, -, -, h⟩ := WebAuthn.Flask.PageRun.C78_truthful_refuted
    exact h fun b n ht => absurd ⟨app, acts, b, n, ht⟩ hn
  · obtain ⟨app, acts, -, -, -, h⟩ := WebAuthn.Flask.PageRun.C78_coherent_refuted
    exact h fun i f hf => absurd ⟨app, acts, i, f, hf⟩ hn

end WebAuthn.Flask.Page
