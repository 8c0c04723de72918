import Verif.Lemmas.PageStatus
import Verif.Props.Page
import Verif.Props.FlaskOutcome

/-!
# C78: what the page tells the user
-/

namespace WebAuthn.Flask.Page

open WebAuthn WebAuthn.Spec

variable {own : Bool} {app : App} {w w' : World} {acts : List Act}

/-! ## Replies -/

theorem occurs_more {evs pre : List Event} {e : Event} (h : Occurs evs pre e) (more : List Event) :
    Occurs (evs ++ more) pre e := by
  obtain ⟨post, rfl⟩ := h
  exact ⟨post ++ more, by simp⟩

/-- The only reply to a response with the status of a success. -/
theorem ok_success {b : Button} {f : Form} {t : Int} {pre : List Event}
    (h : ok (reply app pre (responseEvent b f t)) = true) : reply app pre (responseEvent b f t) = success := by
  have refused : ∀ {att : Bool} {r : Reply} {db : Db}, readResponse app att f t db = .error r →
      ok r ≠ true := by
    intro att r db hr
    unfold readResponse at hr
    repeat' split at hr
    all_goals first
      | (cases hr; simp [ok])
      | cases hr
  have concluded : ∀ m r, ok (conclude m r) = true → conclude m r = success := by
    rintro m (e | ⟨⟩) h
    · simp only [conclude] at h ⊢
      split at h <;> simp [ok] at h
    · rfl
  cases b with
  | register =>
    simp only [responseEvent, reply, step, registrationResponse] at h ⊢
    split at h
    · rename_i r hr
      exact absurd h (refused hr)
    · exact concluded _ _ h
  | authenticate =>
    simp only [responseEvent, reply, step, authenticationResponse] at h ⊢
    split at h
    · rename_i r hr
      exact absurd h (refused hr)
    · exact concluded _ _ h

theorem credentialForm_name {b : Button} {r : Reply} {c : Credential} {name : String} {f : Form}
    (h : credentialForm b r c name = some f) : f.username = some name := by
  cases b <;>
  · simp only [credentialForm, registrationForm, authenticationForm, formFor, Option.bind_eq_bind,
      Option.bind_eq_some_iff, Option.pure_def, Option.some.injEq] at h
    obtain ⟨_, _, _, _, _, _, _, _, rfl⟩ := h
    rfl

/-- A success as the specification has it. -/
theorem succeeds_of {b : Button} {f : Form} {t : Int} {pre : List Event} {name : String}
    (h : reply app pre (responseEvent b f t) = success) (hf : f.username = some name) :
    ∃ n c, Succeeds app pre (responseEvent b f t) t n c name := by
  cases b with
  | register =>
    obtain ⟨n, c, name', _, _, _, _, _, _, _, hs, -⟩ := registration_success h
    obtain ⟨_, _, _, _, _, _, _, _, hn⟩ := id hs
    obtain rfl : name' = name := Option.some.inj (hn.symm.trans hf)
    exact ⟨n, c, h, f, Or.inl rfl, hs⟩
  | authenticate =>
    obtain ⟨n, c, name', _, _, _, _, _, _, _, hs, -⟩ := authentication_success h
    obtain ⟨_, _, _, _, _, _, _, _, hn⟩ := id hs
    obtain rfl : name' = name := Option.some.inj (hn.symm.trans hf)
    exact ⟨n, c, h, f, Or.inr rfl, hs⟩

/-! ## What holds in every execution -/

/-- The application has answered a response with `r`. -/
def Answered (app : App) (evs : List Event) (b : Button) (f : Form) (r : Reply) : Prop :=
  ∃ pre t, Occurs evs pre (responseEvent b f t) ∧ reply app pre (responseEvent b f t) = r

structure FlowOk (app : App) (w : World) (i : Nat) (fl : Flow) : Prop where
  request : ∀ n, fl.point = .request n → .clicked i fl.button n ∈ w.notes ∧
    ∀ c, fl.wire = .sent c → c = .ask n
  body : ∀ n r, fl.point = .body n r → .clicked i fl.button n ∈ w.notes ∧ .replied i r ∈ w.notes ∧
    fl.wire = .idle
  credential : ∀ n r, fl.point = .credential n r → .clicked i fl.button n ∈ w.notes ∧
    .replied i r ∈ w.notes ∧ (∃ v, r = .json v) ∧ ∃ opts, fl.wire = .sent (.authenticator opts)
  response : ∀ f, fl.point = .response f → .submitted i f ∈ w.notes ∧
    (∀ c, fl.wire = .sent c → c = .submit f) ∧
    ∀ r, fl.wire = .answered r → Answered app w.events fl.button f r
  over : fl.point = .over → fl.wire = .idle

theorem FlowOk.mono {i : Nat} {fl : Flow} (h : FlowOk app w i fl) (hn : ∀ n ∈ w.notes, n ∈ w'.notes)
    {more : List Event} (he : w'.events = w.events ++ more) : FlowOk app w' i fl where
  request n hp := ⟨hn _ (h.request n hp).1, (h.request n hp).2⟩
  body n r hp := ⟨hn _ (h.body n r hp).1, hn _ (h.body n r hp).2.1, (h.body n r hp).2.2⟩
  credential n r hp := ⟨hn _ (h.credential n r hp).1, hn _ (h.credential n r hp).2.1,
    (h.credential n r hp).2.2⟩
  response f hp := ⟨hn _ (h.response f hp).1, (h.response f hp).2.1, fun r hr => by
    obtain ⟨pre, t, h1, h2⟩ := (h.response f hp).2.2 r hr
    exact ⟨pre, t, he ▸ occurs_more h1 more, h2⟩⟩
  over := h.over

theorem getElem?_set {α : Type} {l : List α} {i j : Nat} {x y : α} (h : (l.set i x)[j]? = some y) :
    (j = i ∧ y = x) ∨ (j ≠ i ∧ l[j]? = some y) := by
  by_cases hij : j = i
  · subst hij
    left
    rw [List.getElem?_set_self'] at h
    cases hl : l[j]? <;> rw [hl] at h
    · cases h
    · exact ⟨rfl, (Option.some.inj h).symm⟩
  · right
    rw [List.getElem?_set_ne (fun e => hij e.symm)] at h
    exact ⟨hij, h⟩

theorem getElem?_snoc {α : Type} {l : List α} {j : Nat} {x y : α} (h : (l ++ [x])[j]? = some y) :
    (j = l.length ∧ y = x) ∨ l[j]? = some y := by
  rcases Nat.lt_trichotomy j l.length with hj | rfl | hj
  · rw [List.getElem?_append_left hj] at h
    exact Or.inr h
  · rw [List.getElem?_append_right (Nat.le_refl _)] at h
    simp at h
    exact Or.inl ⟨rfl, h.symm⟩
  · rw [List.getElem?_eq_none (by simp; omega)] at h
    cases h

/-- The flows and the wires of every execution. -/
structure Sound (app : App) (w : World) : Prop where
  flows : ∀ i fl, w.flows[i]? = some fl → FlowOk app w i fl
  told : ∀ b name, Telling w.page.status b name → ∃ i f, .submitted i f ∈ w.notes ∧
    Answered app w.events b f success

theorem Answered.more {evs : List Event} {b : Button} {f : Form} {r : Reply}
    (h : Answered app evs b f r) (more : List Event) : Answered app (evs ++ more) b f r := by
  obtain ⟨pre, t, h1, h2⟩ := h
  exact ⟨pre, t, occurs_more h1 more, h2⟩

/-- One flow gets a signal: what has to be shown of it, and of the status. -/
theorem Sound.signal (h : Sound app w) {i : Nat} {fl : Flow} {s : Signal}
    (hi : FlowOk app (w.signal own i fl s) i ⟨fl.button, (resume own fl.button fl.point s w.page).2.1,
      match (resume own fl.button fl.point s w.page).2.2 with | none => .idle | some c => .sent c⟩)
    (ht : ∀ b name, Telling (resume own fl.button fl.point s w.page).1.status b name →
      Telling w.page.status b name ∨ ∃ f, .submitted i f ∈ w.notes ∧
        Answered app w.events b f success) : Sound app (w.signal own i fl s) where
  flows j fl' hj := by
    rcases getElem?_set hj with ⟨rfl, rfl⟩ | ⟨-, hj⟩
    · exact hi
    · refine (h.flows j fl' hj).mono (fun n hn => ?_) (more := []) (by simp [World.signal])
      simp only [World.signal, List.mem_append]
      exact Or.inl (Or.inl hn)
  told b name hb := by
    rcases ht b name hb with hb | ⟨f, h1, h2⟩
    · obtain ⟨j, f, h1, h2⟩ := h.told b name hb
      exact ⟨j, f, by simp only [World.signal, List.mem_append]; exact Or.inl (Or.inl h1), h2⟩
    · exact ⟨i, f, by simp only [World.signal, List.mem_append]; exact Or.inl (Or.inl h1), h2⟩

theorem flowOk_over {i : Nat} {b : Button} : FlowOk app w i ⟨b, .over, .idle⟩ :=
  ⟨nofun, nofun, nofun, nofun, fun _ => rfl⟩

theorem Sound.act (h : Sound app w) (a : Act) : Sound app (w.act own app a) := by
  cases a with
  | click b name =>
    refine ⟨fun j fl hj => ?_, fun b' name' hb => absurd hb asking_silent⟩
    rcases getElem?_snoc hj with ⟨rfl, rfl⟩ | hj
    · refine ⟨?_, nofun, nofun, nofun, nofun⟩
      rintro n ⟨⟩
      exact ⟨by simp [World.act], fun c hc => (Wire.sent.inj hc).symm⟩
    · exact (h.flows j fl hj).mono (by simp +contextual [World.act]) (more := []) (by simp [World.act])
  | serve i hd ch t =>
    simp only [World.act]
    split
    · rename_i b p c hi
      split
      · exact h
      · rename_i e he
        have old := h.flows i _ hi
        refine ⟨fun j fl hj => ?_, fun b' name' hb => ?_⟩
        · rcases getElem?_set hj with ⟨rfl, rfl⟩ | ⟨-, hj⟩
          · refine ⟨fun n hp => ⟨(old.request n hp).1, nofun⟩, fun n r hp => ?_, fun n r hp => ?_,
              fun f hp => ⟨(old.response f hp).1, nofun, ?_⟩, fun hp => ?_⟩
            · have := (old.body n r hp).2.2
              cases this
            · obtain ⟨-, -, -, opts, ho⟩ := old.credential n r hp
              cases Wire.sent.inj ho
              cases b <;> cases he
            · rintro r ⟨⟩
              cases (old.response f hp).2.1 c rfl
              refine ⟨w.events, t, ⟨[], ?_⟩, ?_⟩ <;> cases b <;> cases he <;> rfl
            · have := old.over hp
              cases this
          · exact (h.flows j fl hj).mono (fun _ hn => hn) (more := [e]) rfl
        · obtain ⟨k, f, h1, h2⟩ := h.told b' name' hb
          exact ⟨k, f, h1, h2.more _⟩
    · exact h
  | other e =>
    refine ⟨fun j fl hj => (h.flows j fl hj).mono (fun _ hn => hn) (more := [e]) rfl, fun b name hb => ?_⟩
    obtain ⟨k, f, h1, h2⟩ := h.told b name hb
    exact ⟨k, f, h1, h2.more _⟩
  | arrive i =>
    simp only [World.act]
    split
    · rename_i b p r hi
      have old := h.flows i _ hi
      cases p with
      | request n =>
        obtain ⟨hc, -⟩ := old.request n rfl
        by_cases hr : ok r = true
        · refine h.signal ?_ ?_ <;> simp only [resume, hr, if_true]
          · refine ⟨nofun, ?_, nofun, nofun, nofun⟩
            rintro n r ⟨⟩
            exact ⟨by simp [World.signal, hc], by simp [World.signal, noteSignal], rfl⟩
          · exact fun b name hb => Or.inl hb
        · refine h.signal ?_ ?_ <;> simp only [resume, hr]
          · exact flowOk_over
          · exact fun b name hb => absurd hb vain_silent
      | body n r' => cases (old.body n r' rfl).2.2
      | credential n r' => obtain ⟨-, -, -, opts, ho⟩ := old.credential n r' rfl; cases ho
      | response f =>
        obtain ⟨hs, -, ha⟩ := old.response f rfl
        have ha : Answered app w.events b f r := ha r rfl
        refine h.signal ?_ ?_ <;> simp only [resume]
        · exact flowOk_over
        · intro b' name hb
          simp only [afterResponse] at hb
          split at hb
          · rename_i hr
            obtain ⟨rfl, -⟩ := telling_success.mp hb
            obtain ⟨pre, t, h1, h2⟩ := ha
            exact Or.inr ⟨f, hs, pre, t, h1, ok_success (by rw [h2, hr])⟩
          · exact absurd hb failure_silent
      | over => cases old.over rfl
    · exact h
  | read i =>
    simp only [World.act]
    split
    · rename_i b n r wi hi
      obtain ⟨h1, h2, -⟩ := (h.flows i _ hi).body n r rfl
      refine h.signal ?_ ?_ <;> simp only [resume, afterBody]
      · cases r with
        | json v =>
          dsimp only
          cases ho : optionsFor b (.json v) with
          | none => exact flowOk_over
          | some opts =>
            refine ⟨nofun, nofun, ?_, nofun, nofun⟩
            rintro n r ⟨⟩
            exact ⟨by simp [World.signal, h1], by simp [World.signal, h2], ⟨v, rfl⟩, opts, rfl⟩
        | text m s => exact flowOk_over
        | crash e => exact flowOk_over
      · intro b' name hb
        cases r with
        | json v =>
          dsimp only at hb
          cases ho : optionsFor b (.json v) with
          | none =>
            rw [ho] at hb
            exact Or.inl (by rwa [status_set] at hb)
          | some opts =>
            rw [ho] at hb
            cases b with
            | register => exact absurd hb creating_silent
            | authenticate => exact Or.inl hb
        | text m s => exact Or.inl hb
        | crash e => exact Or.inl hb
    · exact h
  | credential i c =>
    simp only [World.act]
    split
    · rename_i b n r wi hi
      refine h.signal ?_ ?_ <;> simp only [resume, afterCredential]
      · generalize hx : (c.bind fun c => credentialForm b _ c _) = x
        cases x with
        | none => exact flowOk_over
        | some f =>
          refine ⟨nofun, nofun, nofun, ?_, nofun⟩
          rintro f ⟨⟩
          refine ⟨?_, fun c hc => (Wire.sent.inj hc).symm, nofun⟩
          simp only [World.signal, resume, afterCredential, hx]
          simp [noteCall]
      · intro b' name hb
        exfalso
        revert hb
        generalize (c.bind fun c => credentialForm b _ c _) = x
        cases x <;> exact submitting_silent
    · exact h
  | reject i =>
    simp only [World.act]
    split
    · rename_i fl hi
      have : ∀ g, resume own fl.button fl.point .rejected g = (g, .over, none) := by
        intro g
        cases fl.point <;> rfl
      refine h.signal ?_ ?_ <;> simp only [this]
      · exact flowOk_over
      · exact fun b name hb => Or.inl hb
    · exact h

theorem world_snoc (acts : List Act) (a : Act) :
    world own app (acts ++ [a]) = (world own app acts).act own app a := by
  simp [world, List.foldl_append]

theorem sound (own : Bool) (app : App) (acts : List Act) : Sound app (world own app acts) := by
  induction acts using List.reverseRecOn with
  | nil => exact ⟨fun i fl hi => by simp [world] at hi, fun b name hb => absurd hb empty_silent⟩
  | append_singleton acts a ih => rw [world_snoc]; exact ih.act a

/-! ## What holds when flows do not disturb each other -/

/-- The variables that the flow uses are its own. -/
structure Fits (own : Bool) (w : World) (i : Nat) (fl : Flow) : Prop where
  credential : ∀ n r, fl.point = .credential n r → own = true ∨
    r = .json (w.page.slots fl.button).request ∧ (w.page.slots fl.button).username = some n
  response : ∀ f, fl.point = .response f → ∃ n, f.username = some n ∧
    .clicked i fl.button n ∈ w.notes ∧ (own = true ∨ (w.page.slots fl.button).username = some n)

/-- The request and the user name of a button. -/
def SameSlots (b : Button) (g g' : Globals) : Prop :=
  (g'.slots b).request = (g.slots b).request ∧ (g'.slots b).username = (g.slots b).username

theorem Fits.mono {i : Nat} {fl : Flow} (h : Fits own w i fl) (hn : ∀ n ∈ w.notes, n ∈ w'.notes)
    (hg : Holding fl.point → own = true ∨ SameSlots fl.button w.page w'.page) : Fits own w' i fl where
  credential n r hp := by
    rcases hg (by rw [hp]; trivial) with ho | ⟨h1, h2⟩
    · exact Or.inl ho
    · rw [h1, h2]
      exact h.credential n r hp
  response f hp := by
    obtain ⟨n, h1, h2, h3⟩ := h.response f hp
    refine ⟨n, h1, hn _ h2, ?_⟩
    rcases hg (by rw [hp]; trivial) with ho | ⟨-, h4⟩
    · exact Or.inl ho
    · rw [h4]
      exact h3

theorem fits_over {i : Nat} {b : Button} {wi : Wire} : Fits own w i ⟨b, .over, wi⟩ := ⟨nofun, nofun⟩

structure Kept (own : Bool) (app : App) (w : World) : Prop where
  flows : ∀ i fl, w.flows[i]? = some fl → Fits own w i fl
  told : ∀ b name, Telling w.page.status b name → ∃ f, f.username = some name ∧
    Answered app w.events b f success
  coherent : Coherent w

theorem Coherent.mono (h : Coherent w) (hn : ∀ n ∈ w.notes, n ∈ w'.notes)
    (hs : ∀ i f, .submitted i f ∈ w'.notes → .submitted i f ∈ w.notes) : Coherent w' := by
  intro i f hf
  obtain ⟨b, name, r, c, h1, h2, h3, h4⟩ := h i f (hs i f hf)
  exact ⟨b, name, r, c, hn _ h1, hn _ h2, hn _ h3, h4⟩

theorem submitted_noteSignal {i j : Nat} {p : Point} {s : Signal} {f : Form} :
    .submitted j f ∉ noteSignal i p s := by
  unfold noteSignal
  split <;> simp

theorem submitted_noteCall {i j : Nat} {o : Option Call} {f : Form} (h : .submitted j f ∈ noteCall i o) :
    j = i ∧ o = some (.submit f) := by
  unfold noteCall at h
  split at h <;> simp at h
  obtain ⟨rfl, rfl⟩ := h
  exact ⟨rfl, rfl⟩

theorem notes_signal {i : Nat} {fl : Flow} {s : Signal} :
    ∀ n ∈ w.notes, n ∈ (w.signal own i fl s).notes := by
  intro n hn
  simp only [World.signal, List.mem_append]
  exact Or.inl (Or.inl hn)

theorem Kept.signal (h : Kept own app w) {i : Nat} {fl : Flow} {s : Signal}
    (hi : Fits own (w.signal own i fl s) i ⟨fl.button, (resume own fl.button fl.point s w.page).2.1,
      match (resume own fl.button fl.point s w.page).2.2 with | none => .idle | some c => .sent c⟩)
    (hj : ∀ j fl', i ≠ j → w.flows[j]? = some fl' → Holding fl'.point → own = true ∨
      SameSlots fl'.button w.page (resume own fl.button fl.point s w.page).1)
    (ht : ∀ b name, Telling (resume own fl.button fl.point s w.page).1.status b name →
      Telling w.page.status b name ∨ ∃ f, f.username = some name ∧ Answered app w.events b f success)
    (hc : ∀ f, (resume own fl.button fl.point s w.page).2.2 = some (.submit f) →
      ∃ b name r c, .clicked i b name ∈ w.notes ∧ .replied i r ∈ w.notes ∧
        .made i c ∈ noteSignal i fl.point s ∧ credentialForm b r c name = some f) :
    Kept own app (w.signal own i fl s) where
  flows j fl' hjl := by
    rcases getElem?_set hjl with ⟨rfl, rfl⟩ | ⟨hji, hjl⟩
    · exact hi
    · exact (h.flows j fl' hjl).mono notes_signal (hj j fl' (fun e => hji e.symm) hjl)
  told b name hb := by
    rcases ht b name hb with hb | h1
    · exact h.told b name hb
    · exact h1
  coherent := by
    intro j f hf
    simp only [World.signal, List.mem_append] at hf
    rcases hf with (hf | hf) | hf
    · obtain ⟨b, name, r, c, h1, h2, h3, h4⟩ := h.coherent j f hf
      exact ⟨b, name, r, c, notes_signal _ h1, notes_signal _ h2, notes_signal _ h3, h4⟩
    · exact absurd hf submitted_noteSignal
    · obtain ⟨rfl, hf'⟩ := submitted_noteCall hf
      obtain ⟨b, name, r, c, h1, h2, h3, h4⟩ := hc f hf'
      refine ⟨b, name, r, c, notes_signal _ h1, notes_signal _ h2, ?_, h4⟩
      simp only [World.signal, List.mem_append]
      exact Or.inl (Or.inr h3)

theorem sameSlots_refl (b : Button) (g : Globals) : SameSlots b g g := ⟨rfl, rfl⟩

theorem sameSlots_say (b : Button) (g : Globals) (s : String) : SameSlots b g (g.say s) := by
  unfold SameSlots
  rw [slots_say]
  exact ⟨rfl, rfl⟩

theorem sameSlots_credential (b b' : Button) (g : Globals) (c : Option Credential) (s : String) :
    SameSlots b g ((g.set b' { g.slots b' with credential := c }).say s) := by
  cases b <;> cases b' <;> exact ⟨rfl, rfl⟩

/-- The variables that a flow uses, when they are its own. -/
theorem afterCredential_fits {b : Button} {n : String} {r : Reply} {g : Globals} {c : Option Credential}
    (h : own = true ∨ r = .json (g.slots b).request ∧ (g.slots b).username = some n) :
    afterCredential own b n r g c =
      let g := (g.set b { g.slots b with credential := c }).say (submittingText b n)
      match c.bind fun c => credentialForm b r c n with
      | none => (g, .over, none)
      | some f => (g, .response f, some (.submit f)) := by
  rcases h with rfl | ⟨h1, h2⟩
  · rfl
  · cases own
    · simp only [afterCredential, slots_set_self, h2, ← h1]
      rfl
    · rfl

theorem afterResponse_fits {b : Button} {f : Form} {n : String} {g : Globals} {r : Reply}
    (hf : f.username = some n) (h : own = true ∨ (g.slots b).username = some n) :
    afterResponse own b f g r =
      if ok r then g.say (successText b n) else g.say (failureText b n) := by
  have : (if own = true then f.username else (g.slots b).username) = some n := by
    rcases h with rfl | h
    · exact hf
    · rw [h, hf, ite_self]
  simp only [afterResponse, this]
  rfl

theorem Kept.act (h : Kept own app w) (hw : Sound app w) {a : Act}
    (ha : own = true ∨ ∀ i j b n r wi fl, a = .read i → i ≠ j →
      w.flows[i]? = some ⟨b, .body n r, wi⟩ → w.flows[j]? = some fl → fl.button = b →
      ¬ Holding fl.point) :
    Kept own app (w.act own app a) := by
  cases a with
  | click b name =>
    refine ⟨fun j fl hj => ?_, fun b' name' hb => absurd hb asking_silent,
      h.coherent.mono (by simp +contextual [World.act]) (by simp [World.act])⟩
    rcases getElem?_snoc hj with ⟨rfl, rfl⟩ | hj
    · exact ⟨nofun, nofun⟩
    · exact (h.flows j fl hj).mono (by simp +contextual [World.act])
        fun _ => Or.inr (sameSlots_say _ _ _)
  | serve i hd ch t =>
    simp only [World.act]
    split
    · rename_i b p c hi
      split
      · exact h
      · rename_i e he
        have old := h.flows i _ hi
        refine ⟨fun j fl hj => ?_, fun b' name' hb => ?_,
          h.coherent.mono (fun _ hn => hn) (fun _ _ hn => hn)⟩
        · rcases getElem?_set hj with ⟨rfl, rfl⟩ | ⟨-, hj⟩
          · exact ⟨old.credential, old.response⟩
          · exact (h.flows j fl hj).mono (fun _ hn => hn) fun _ => Or.inr (sameSlots_refl _ _)
        · obtain ⟨f, h1, h2⟩ := h.told b' name' hb
          exact ⟨f, h1, h2.more _⟩
    · exact h
  | other e =>
    refine ⟨fun j fl hj => (h.flows j fl hj).mono (fun _ hn => hn) fun _ => Or.inr (sameSlots_refl _ _),
      fun b name hb => ?_, h.coherent.mono (fun _ hn => hn) (fun _ _ hn => hn)⟩
    obtain ⟨f, h1, h2⟩ := h.told b name hb
    exact ⟨f, h1, h2.more _⟩
  | arrive i =>
    simp only [World.act]
    split
    · rename_i b p r hi
      have old := h.flows i _ hi
      have oldw := hw.flows i _ hi
      cases p with
      | request n =>
        by_cases hr : ok r = true
        · refine h.signal ?_ ?_ ?_ ?_ <;> simp only [resume, hr, if_true]
          · exact ⟨nofun, nofun⟩
          · exact fun _ _ _ _ _ => Or.inr (sameSlots_refl _ _)
          · exact fun b name hb => Or.inl hb
          · exact nofun
        · refine h.signal ?_ ?_ ?_ ?_ <;> simp only [resume, hr]
          · exact fits_over
          · exact fun _ _ _ _ _ => Or.inr (sameSlots_say _ _ _)
          · exact fun b name hb => absurd hb vain_silent
          · exact nofun
      | body n r' => cases (oldw.body n r' rfl).2.2
      | credential n r' => obtain ⟨-, -, -, opts, ho⟩ := oldw.credential n r' rfl; cases ho
      | response f =>
        obtain ⟨-, -, ha⟩ := oldw.response f rfl
        have ha : Answered app w.events b f r := ha r rfl
        obtain ⟨n, h1, -, h3⟩ := old.response f rfl
        refine h.signal ?_ ?_ ?_ ?_ <;> simp only [resume, afterResponse_fits h1 h3]
        · exact fits_over
        · intro j fl' _ _ _
          split <;> exact Or.inr (sameSlots_say _ _ _)
        · intro b' name hb
          split at hb
          · rename_i hr
            obtain ⟨rfl, rfl⟩ := telling_success.mp hb
            obtain ⟨pre, t, h4, h5⟩ := ha
            exact Or.inr ⟨f, h1, pre, t, h4, ok_success (by rw [h5, hr])⟩
          · exact absurd hb failure_silent
        · exact nofun
      | over => cases oldw.over rfl
    · exact h
  | read i =>
    simp only [World.act]
    split
    · rename_i b n r wi hi
      obtain ⟨h1, h2, -⟩ := (hw.flows i _ hi).body n r rfl
      refine h.signal ?_ ?_ ?_ ?_ <;> simp only [resume]
      · cases r with
        | json v =>
          simp only [afterBody]
          cases ho : optionsFor b (.json v) with
          | none => exact fits_over
          | some opts =>
            refine ⟨?_, nofun⟩
            rintro n r ⟨⟩
            right
            simp only [World.signal, resume, afterBody, ho]
            cases b <;> exact ⟨rfl, rfl⟩
        | text m s => exact fits_over
        | crash e => exact fits_over
      · intro j fl' hij hj hh
        rcases ha with ha | ha
        · exact Or.inl ha
        · right
          have hne : b ≠ fl'.button := fun e => ha i j _ _ _ _ fl' rfl hij hi hj e.symm hh
          simp only [afterBody]
          cases r with
          | json v =>
            dsimp only
            cases ho : optionsFor b (.json v) with
            | none =>
              dsimp only
              unfold SameSlots
              rw [slots_set_ne hne]
              exact ⟨rfl, rfl⟩
            | some opts =>
              generalize fl'.button = b' at hne
              cases b <;> cases b' <;> first | exact ⟨rfl, rfl⟩ | exact absurd rfl hne
          | text m s => exact sameSlots_refl _ _
          | crash e => exact sameSlots_refl _ _
      · intro b' name hb
        simp only [afterBody] at hb
        cases r with
        | json v =>
          dsimp only at hb
          cases ho : optionsFor b (.json v) with
          | none =>
            rw [ho] at hb
            exact Or.inl (by rwa [status_set] at hb)
          | some opts =>
            rw [ho] at hb
            cases b with
            | register => exact absurd hb creating_silent
            | authenticate => exact Or.inl hb
        | text m s => exact Or.inl hb
        | crash e => exact Or.inl hb
      · intro f hf
        simp only [afterBody] at hf
        cases r with
        | json v =>
          dsimp only at hf
          cases ho : optionsFor b (.json v) <;> rw [ho] at hf <;> simp at hf
        | text m s => cases hf
        | crash e => cases hf
    · exact h
  | credential i c =>
    simp only [World.act]
    split
    · rename_i b n r wi hi
      have old := h.flows i _ hi
      obtain ⟨h1, h2, -⟩ := (hw.flows i _ hi).credential n r rfl
      have e := afterCredential_fits (c := c) (old.credential n r rfl)
      refine h.signal ?_ ?_ ?_ ?_ <;> simp only [resume, e]
      · cases hx : (c.bind fun c => credentialForm b r c n) with
        | none => exact fits_over
        | some f =>
          refine ⟨nofun, ?_⟩
          rintro f ⟨⟩
          obtain ⟨c, rfl, hf⟩ := Option.bind_eq_some_iff.mp hx
          refine ⟨n, credentialForm_name hf, notes_signal _ h1, ?_⟩
          rcases old.credential n r rfl with ho | ⟨-, h4⟩
          · exact Or.inl ho
          · right
            simp only [World.signal, resume, e, hx]
            rw [slots_say, slots_set_self]
            exact h4
      · intro j fl' _ _ _
        right
        cases hx : (c.bind fun c => credentialForm b r c n) <;> exact sameSlots_credential _ _ _ _ _
      · intro b' name hb
        exfalso
        revert hb
        cases hx : (c.bind fun c => credentialForm b r c n) <;> exact submitting_silent
      · intro f hf
        cases hx : (c.bind fun c => credentialForm b r c n) with
        | none => rw [hx] at hf; cases hf
        | some f' =>
          rw [hx] at hf
          obtain rfl : f' = f := by simpa using hf
          obtain ⟨c, rfl, hf'⟩ := Option.bind_eq_some_iff.mp hx
          exact ⟨b, n, r, c, h1, h2, by simp [noteSignal], hf'⟩
    · exact h
  | reject i =>
    simp only [World.act]
    split
    · rename_i fl hi
      have : ∀ g, resume own fl.button fl.point .rejected g = (g, .over, none) := by
        intro g
        cases fl.point <;> rfl
      refine h.signal ?_ ?_ ?_ ?_ <;> simp only [this]
      · exact fits_over
      · exact fun _ _ _ _ _ => Or.inr (sameSlots_refl _ _)
      · exact fun b name hb => Or.inl hb
      · exact nofun
    · exact h

theorem Kept.truthful (h : Kept own app w) : Truthful app w := by
  intro b name hb
  obtain ⟨f, h1, pre, t, h2, h3⟩ := h.told b name (telling_iff.mp hb)
  obtain ⟨n, c, h4⟩ := succeeds_of h3 h1
  exact ⟨pre, f, t, n, c, h2, h4⟩

theorem kept (h : own = true ∨ Undisturbed own app acts) : Kept own app (world own app acts) := by
  induction acts using List.reverseRecOn with
  | nil =>
    exact ⟨fun i fl hi => by simp [world] at hi, fun b name hb => absurd hb empty_silent,
      fun i f hf => by simp [world] at hf⟩
  | append_singleton acts a ih =>
    rw [world_snoc]
    refine (ih (h.imp id fun h pre i j b n r wi fl hp => h pre i j b n r wi fl
      (hp.trans (List.prefix_append _ _)))).act
      (sound own app acts) (h.imp id fun h i j b n r wi fl ha => ?_)
    subst ha
    exact h acts i j b n r wi fl (List.prefix_refl _)

/-! ## C78 -/

/-- C78: if no flow reads its reply while another of the same button uses the variables,
the page tells that a user registered or was authorized only if the application accepted
a response for that user. -/
theorem C78_truthful_partial (h : Undisturbed false app acts) : Truthful app (world false app acts) :=
  (kept (Or.inr h)).truthful

/-- C78: under the same condition every form that the page submits is made of the user
name, the reply and the credential of one flow. -/
theorem C78_coherent_partial (h : Undisturbed false app acts) : Coherent (world false app acts) :=
  (kept (Or.inr h)).coherent

/-- C78: flows with variables of their own tell the truth however they overlap. -/
theorem C78_repaired_truthful (app : App) (acts : List Act) : Truthful app (world true app acts) :=
  (kept (Or.inl rfl)).truthful

/-- C78: flows with variables of their own never mix up forms. -/
theorem C78_repaired_coherent (app : App) (acts : List Act) : Coherent (world true app acts) :=
  (kept (Or.inl rfl)).coherent

/-- C78: however flows overlap, the page tells of a success only if the application
accepted a response that the page submitted. -/
theorem C78_some_success {b : Button} {name : String} (h : Tells (world own app acts) b name) :
    ∃ i f pre t, .submitted i f ∈ (world own app acts).notes ∧
      Occurs (world own app acts).events pre (responseEvent b f t) ∧
      reply app pre (responseEvent b f t) = success := by
  obtain ⟨i, f, h1, pre, t, h2, h3⟩ := (sound own app acts).told b name (telling_iff.mp h)
  exact ⟨i, f, pre, t, h1, h2, h3⟩

/-- The reply to the response of a flow arrives. -/
theorem concludes (h : own = true ∨ Undisturbed own app acts) {i : Nat} {b : Button} {f : Form} {r : Reply}
    (hi : (world own app acts).flows[i]? = some ⟨b, .response f, .answered r⟩) :
    ∃ name, .clicked i b name ∈ (world own app acts).notes ∧ f.username = some name ∧
      (Tells (world own app (acts ++ [.arrive i])) b name ↔ r = success) := by
  obtain ⟨n, h1, h2, h3⟩ := ((kept h).flows i _ hi).response f rfl
  refine ⟨n, h2, h1, ?_⟩
  obtain ⟨pre, t, -, h4⟩ := (((sound own app acts).flows i _ hi).response f rfl).2.2 r rfl
  rw [telling_iff, world_snoc]
  simp only [World.act, hi, World.signal, resume, afterResponse_fits h1 h3]
  by_cases hr : ok r = true
  · rw [if_pos hr]
    refine ⟨fun _ => ?_, fun _ => telling_success.mpr ⟨rfl, rfl⟩⟩
    rw [← h4]
    exact ok_success (by rw [h4, hr])
  · rw [if_neg hr]
    refine ⟨fun ht => absurd ht failure_silent, ?_⟩
    rintro rfl
    exact absurd rfl hr

/-- C78: under the same condition the page tells of a success for the user name that was
typed when the reply to the response of the flow arrives, exactly if it is a success. -/
theorem C78_conclusion_partial (h : Undisturbed false app acts) {i : Nat} {b : Button} {f : Form} {r : Reply}
    (hi : (world false app acts).flows[i]? = some ⟨b, .response f, .answered r⟩) :
    ∃ name, .clicked i b name ∈ (world false app acts).notes ∧ f.username = some name ∧
      (Tells (world false app (acts ++ [.arrive i])) b name ↔ r = success) :=
  concludes (Or.inr h) hi

/-- C78: with variables of their own this holds however flows overlap. -/
theorem C78_repaired_conclusion {i : Nat} {b : Button} {f : Form} {r : Reply}
    (hi : (world true app acts).flows[i]? = some ⟨b, .response f, .answered r⟩) :
    ∃ name, .clicked i b name ∈ (world true app acts).notes ∧ f.username = some name ∧
      (Tells (world true app (acts ++ [.arrive i])) b name ↔ r = success) :=
  concludes (Or.inl rfl) hi

/-! ## One flow at a time -/

/-- Of the flows of a button, at most one is not over. -/
def Single (w : World) : Prop :=
  ∀ (i j : Nat) (fl fl' : Flow), i ≠ j → w.flows[i]? = some fl → w.flows[j]? = some fl' → fl.button = fl'.button →
    fl.point = .over ∨ fl'.point = .over

theorem resume_over (b : Button) (s : Signal) (g : Globals) :
    resume own b .over s g = (g, .over, none) := rfl

theorem single_set {i : Nat} {fl fl' : Flow} (h : Single w) (hi : w.flows[i]? = some fl)
    (hb : fl'.button = fl.button) (ho : fl.point = .over → fl'.point = .over) {x : World}
    (hx : x.flows = w.flows.set i fl') : Single x := by
  intro j k fj fk hjk hj hk hjb
  rw [hx] at hj hk
  rcases getElem?_set hj with ⟨rfl, rfl⟩ | ⟨hj', hj₁⟩ <;>
    rcases getElem?_set hk with ⟨rfl, rfl⟩ | ⟨hk', hk₁⟩
  · exact absurd rfl hjk
  · exact (h _ _ _ _ hjk hi hk₁ (hb ▸ hjb)).imp ho id
  · exact (h _ _ _ _ hjk hj₁ hi (hb ▸ hjb)).imp id ho
  · exact h _ _ _ _ hjk hj₁ hk₁ hjb

theorem single_signal {i : Nat} {fl : Flow} {s : Signal} (h : Single w) (hi : w.flows[i]? = some fl) :
    Single (w.signal own i fl s) := by
  refine single_set h hi (x := w.signal own i fl s) (fl' := ⟨fl.button,
    (resume own fl.button fl.point s w.page).2.1, _⟩) rfl (fun ho => ?_) rfl
  show (resume own fl.button fl.point s w.page).2.1 = .over
  rw [ho, resume_over]

theorem Single.act (h : Single w) {a : Act}
    (ha : ∀ b name fl, a = .click b name → fl ∈ w.flows → fl.button = b → fl.point = .over) :
    Single (w.act own app a) := by
  cases a with
  | click b name =>
    intro j k fj fk hjk hj hk hb
    rcases getElem?_snoc hj with ⟨rfl, rfl⟩ | hj <;> rcases getElem?_snoc hk with ⟨rfl, rfl⟩ | hk
    · exact absurd rfl hjk
    · exact Or.inr (ha b name fk rfl (List.mem_of_getElem? hk) hb.symm)
    · exact Or.inl (ha b name fj rfl (List.mem_of_getElem? hj) hb)
    · exact h _ _ _ _ hjk hj hk hb
  | serve i hd ch t =>
    simp only [World.act]
    split
    · rename_i b p c hi
      split
      · exact h
      · rename_i e _
        exact single_set h hi (fl' := ⟨b, p, .answered (reply app w.events e)⟩) rfl id rfl
    · exact h
  | other e => exact h
  | arrive i =>
    simp only [World.act]
    split
    · rename_i hi
      exact single_signal h hi
    · exact h
  | read i =>
    simp only [World.act]
    split
    · rename_i hi
      exact single_signal h hi
    · exact h
  | credential i c =>
    simp only [World.act]
    split
    · rename_i hi
      exact single_signal h hi
    · exact h
  | reject i =>
    simp only [World.act]
    split
    · rename_i hi
      exact single_signal h hi
    · exact h

theorem single (h : OneAtATime own app acts) : Single (world own app acts) := by
  induction acts using List.reverseRecOn with
  | nil => exact fun i j fl fl' _ hi => by simp [world] at hi
  | append_singleton acts a ih =>
    rw [world_snoc]
    refine (ih fun pre b name fl hp => h pre b name fl (hp.trans (List.prefix_append _ _))).act ?_
    intro b name fl ha
    subst ha
    exact h acts b name fl (List.prefix_refl _)

/-- C78: flows do not disturb each other if a button is clicked only when the flows
that it has started are over.  The two buttons may be used at the same time. -/
theorem C78_one_at_a_time (h : OneAtATime own app acts) : Undisturbed own app acts := by
  intro pre i j b n r wi fl hp hij hi hj hb hh
  have hs : Single (world own app pre) := single fun pre' b name fl hq =>
    h pre' b name fl (hq.trans ((List.prefix_append _ _).trans hp))
  rcases hs i j _ fl hij hi hj hb.symm with ho | ho
  · cases ho
  · rw [ho] at hh
    exact hh

end WebAuthn.Flask.Page
