import Verif.Spec.Lifecycle
import Verif.Props.Restore

/-!
# The application is started and stopped (C109)
-/

namespace WebAuthn.Flask

open WebAuthn.Spec WebAuthn.Props

section
variable {careful : Bool} {app : App} {hs : List Life}

theorem host_snoc (hs : List Life) (x : Life) : host careful app (hs ++ [x]) = (host careful app hs).next careful app x := by
  simp only [host, List.foldl_append, List.foldl_cons, List.foldl_nil]

theorem host_append (a b : List Life) :
    host careful app (a ++ b) = b.foldl (Host.next careful app) (host careful app a) := by
  simp only [host, List.foldl_append]

theorem listening_nil : ¬ Listening [] := by
  rintro ⟨a, b, h, -⟩
  simp at h

theorem listening_snoc (hs : List Life) (x : Life) :
    Listening (hs ++ [x]) ↔ x = .start ∨ x ≠ .stop ∧ x ≠ .kill ∧ Listening hs := by
  constructor
  · rintro ⟨a, b, h, h1, h2⟩
    rcases List.eq_nil_or_concat b with rfl | ⟨b, y, rfl⟩
    · exact Or.inl (by simpa using (List.append_inj' h rfl).2)
    · rw [List.concat_eq_append] at h h1 h2
      rw [← List.cons_append, ← List.append_assoc] at h
      obtain ⟨h3, h4⟩ := List.append_inj' h rfl
      obtain rfl : x = y := by simpa using h4
      simp only [List.mem_append, List.mem_singleton, not_or] at h1 h2
      exact Or.inr ⟨fun h => h1.2 h.symm, fun h => h2.2 h.symm, a, b, h3, h1.1, h2.1⟩
  · rintro (rfl | ⟨h1, h2, a, b, rfl, h3, h4⟩)
    · exact ⟨hs, [], rfl, by simp, by simp⟩
    · refine ⟨a, b ++ [x], by simp, ?_, ?_⟩
      · simp only [List.mem_append, List.mem_singleton, not_or]
        exact ⟨h3, fun h => h1 h.symm⟩
      · simp only [List.mem_append, List.mem_singleton, not_or]
        exact ⟨h4, fun h => h2 h.symm⟩

theorem serving_iff (hs : List Life) : (host careful app hs).serving = true ↔ Listening hs := by
  induction hs using List.reverseRecOn with
  | nil => exact ⟨fun h => (by cases h), fun h => absurd h listening_nil⟩
  | append_singleton l x ih =>
    rw [host_snoc, listening_snoc]
    cases x with
    | request e =>
      rw [← ih]
      rcases h : host careful app l with ⟨s, f⟩
      cases s <;> cases f <;> simp [Host.next]
    | start =>
      rcases h : host careful app l with ⟨s, f⟩
      cases s <;> simp [Host.next]
    | stop =>
      rcases h : host careful app l with ⟨s, f⟩
      cases s <;> simp [Host.next]
    | kill => simp [Host.next]

/-! ## As with backups, of which the first may be put back -/

/-- What happens to the tables. -/
def toStep (careful : Bool) (h : Host) (i : Nat) : Life → Step
  | .request e => if h.serving && h.file.isSome then .request e else .restore i
  | .start => if h.serving && !careful then .restore 0 else .restore i
  | .stop => if h.serving then .restore 0 else .restore i
  | .kill => .restore i

def asStepsFrom (careful : Bool) (app : App) (hs : List Life) : Host × List Step :=
  hs.foldl (fun p x => (p.1.next careful app x, p.2 ++ [toStep careful p.1 p.2.length x])) ({}, [])

def asSteps (careful : Bool) (app : App) (hs : List Life) : List Step := (asStepsFrom careful app hs).2

theorem asStepsFrom_host (hs : List Life) : (asStepsFrom careful app hs).1 = host careful app hs := by
  induction hs using List.reverseRecOn with
  | nil => rfl
  | append_singleton l x ih =>
    rw [host_snoc, ← ih]
    simp only [asStepsFrom, List.foldl_append, List.foldl_cons, List.foldl_nil]

theorem asSteps_snoc' (hs : List Life) (x : Life) : asSteps careful app (hs ++ [x]) =
    asSteps careful app hs ++ [toStep careful (host careful app hs) (asSteps careful app hs).length x] := by
  rw [← asStepsFrom_host]
  simp only [asSteps, asStepsFrom, List.foldl_append, List.foldl_cons, List.foldl_nil]

theorem asSteps_length (hs : List Life) : (asSteps careful app hs).length = hs.length := by
  induction hs using List.reverseRecOn with
  | nil => rfl
  | append_singleton l x ih => simp [asSteps_snoc', ih]

theorem asSteps_snoc (hs : List Life) (x : Life) : asSteps careful app (hs ++ [x]) =
    asSteps careful app hs ++ [toStep careful (host careful app hs) hs.length x] := by
  rw [asSteps_snoc', asSteps_length]

theorem asSteps_take (hs : List Life) (i : Nat) : asSteps careful app (hs.take i) = (asSteps careful app hs).take i := by
  induction hs using List.reverseRecOn with
  | nil => simp [asSteps, asStepsFrom]
  | append_singleton l x ih =>
    rcases Nat.lt_or_ge l.length i with h | h
    · rw [List.take_of_length_le (by simp; omega), List.take_of_length_le (by rw [asSteps_length]; simp; omega)]
    · rw [List.take_append_of_le_length h, asSteps_snoc, List.take_append_of_le_length (by rw [asSteps_length]; exact h), ih]

theorem asSteps_getElem {i : Nat} {x : Life} (h : hs[i]? = some x) :
    (asSteps careful app hs)[i]? = some (toStep careful (host careful app (hs.take i)) i x) := by
  have hi := (List.getElem?_eq_some_iff.mp h).1
  have h1 : hs.take (i + 1) = hs.take i ++ [x] := by
    rw [List.take_add_one, h]
    rfl
  have h2 := asSteps_take (careful := careful) (app := app) hs (i + 1)
  rw [h1, asSteps_snoc] at h2
  have h3 := congrArg (·[i]?) h2
  have hl : (asSteps careful app (hs.take i)).length = i := by
    rw [asSteps_length, List.length_take]
    omega
  rw [List.getElem?_take, if_pos (by omega), List.getElem?_append_right (by omega), hl, List.length_take,
    Nat.min_eq_left hi.le] at h3
  rw [← h3]
  simp

theorem tables_restored (hs : List Life) :
    restoredRun app (asSteps careful app hs) = (host careful app hs).file.getD {} := by
  induction hs using List.reverseRecOn with
  | nil => rfl
  | append_singleton l x ih =>
    have same : restoredRun app (asSteps careful app l ++ [.restore l.length]) = (host careful app l).file.getD {} := by
      rw [← ih, restoredRun, latest_restore, List.take_of_length_le (by rw [asSteps_length])]
      rfl
    have gone : restoredRun app (asSteps careful app l ++ [.restore 0]) = {} := by
      rw [restoredRun, latest_restore]
      rfl
    rw [asSteps_snoc, host_snoc]
    rcases h : host careful app l with ⟨s, f⟩
    rw [h] at ih same
    cases x with
    | request e =>
      cases s <;> cases f
      · exact same
      · exact same
      · exact same
      · simp only [toStep, Host.next, Bool.and_self, Option.isSome_some, if_true]
        rw [restoredRun, latest_request]
        have : latest (fun _ e db => (step app e db).2) id {} (asSteps careful app l) = _ := ih
        rw [this]
        rfl
    | start => cases s <;> cases careful <;> first | exact same | exact gone
    | stop => cases s <;> first | exact same | exact gone
    | kill => exact same

/-- Without tables no request succeeds or gets a challenge. -/
theorem first_fails (app : App) (e : Event) {r : Reply}
    (h : r = match task app e with | .done r => r | t => t.failure) :
    r = .crash operationalError ∨ (∃ x, r = .crash x) ∨ ∃ m, r = .text m 400 := by
  have read : ∀ b f t k, (∃ r, readTask app b f t k = .done r ∧ ((∃ x, r = .crash x) ∨ ∃ m, r = .text m 400)) ∨
      ∃ n g, readTask app b f t k = .challenge n g := by
    intro b f t k
    rw [readTask]
    split
    · split
      · exact Or.inl ⟨_, rfl, Or.inr ⟨_, rfl⟩⟩
      · exact Or.inl ⟨_, rfl, Or.inl ⟨_, rfl⟩⟩
    · split
      · exact Or.inl ⟨_, rfl, Or.inr ⟨_, rfl⟩⟩
      · exact Or.inr ⟨_, _, rfl⟩
  cases e with
  | registrationRequest n hd c t =>
    cases n with
    | none => exact Or.inr (Or.inr ⟨_, h⟩)
    | some name => exact Or.inl h
  | authenticationRequest n c t =>
    cases n with
    | none => exact Or.inr (Or.inr ⟨_, h⟩)
    | some name => exact Or.inl h
  | registrationResponse f t =>
    simp only [task] at h
    rcases read true f t (fun c ch u => handlerTask app.env "Could not handle credential attestation"
        (attestationProg app.env (attestationArgs c ch u))) with ⟨r', h1, h2⟩ | ⟨n, g, h1⟩
    · rw [h1] at h
      exact Or.inr (h ▸ h2)
    · rw [h1] at h
      exact Or.inl h
  | authenticationResponse f t =>
    simp only [task] at h
    rcases read false f t (fun c ch u => handlerTask app.env "Could not handle credential assertion"
        (assertionProg app.env (assertionArgs c ch u))) with ⟨r', h1, h2⟩ | ⟨n, g, h1⟩
    · rw [h1] at h
      exact Or.inr (h ▸ h2)
    · rw [h1] at h
      exact Or.inl h

/-- There are tables. -/
def Ready (careful : Bool) (app : App) (hs : List Life) : Prop :=
  (host careful app hs).serving = true ∧ (host careful app hs).file.isSome = true

theorem ready_reply (h : Ready careful app hs) (e : Event) :
    lifeReply careful app hs e = restoredReply app (asSteps careful app hs) e := by
  obtain ⟨h1, h2⟩ := h
  have ht := tables_restored (careful := careful) (app := app) hs
  rcases hh : host careful app hs with ⟨s, f⟩
  rw [hh] at h1 h2 ht
  obtain ⟨db, rfl⟩ := Option.isSome_iff_exists.mp h2
  subst h1
  rw [restoredReply, ht, lifeReply, hh]
  rfl

theorem unready_reply (h : ¬ Ready careful app hs) (e : Event) :
    lifeReply careful app hs e = noAnswer ∨ (∃ x, lifeReply careful app hs e = .crash x) ∨
    ∃ m, lifeReply careful app hs e = .text m 400 := by
  rw [Ready] at h
  rw [lifeReply]
  rcases hh : host careful app hs with ⟨s, f⟩
  rw [hh] at h
  cases s with
  | false => exact Or.inl rfl
  | true =>
    cases f with
    | some db => exact absurd ⟨rfl, rfl⟩ h
    | none =>
      rcases first_fails app e (show Host.reply app ⟨true, none⟩ e = _ from rfl) with h | h | h
      · exact Or.inr (Or.inl ⟨_, h⟩)
      · exact Or.inr (Or.inl h)
      · exact Or.inr (Or.inr h)

theorem ready_of_success {e : Event} (h : lifeReply careful app hs e = success) : Ready careful app hs := by
  by_contra hn
  rcases unready_reply hn e with h1 | ⟨x, h1⟩ | ⟨m, h1⟩ <;> rw [h1] at h
  · simp [noAnswer, success] at h
  · cases h
  · simp [success] at h

theorem ready_of_json {e : Event} {v : PyVal} (h : lifeReply careful app hs e = .json v) : Ready careful app hs := by
  by_contra hn
  rcases unready_reply hn e with h1 | ⟨x, h1⟩ | ⟨m, h1⟩ <;> rw [h1] at h <;> cases h

/-! ## What lasts -/

theorem removedAt_lt {q : Nat} (h : RemovedAt careful hs q) : q < hs.length := by
  rcases h with ⟨h, -⟩ | ⟨-, h, -⟩ <;> exact (List.getElem?_eq_some_iff.mp h).1

theorem removedAt_append {a b : List Life} {q : Nat} (hq : q < a.length) :
    RemovedAt careful (a ++ b) q ↔ RemovedAt careful a q := by
  simp only [RemovedAt, StoppedAt, StartedTwiceAt, List.getElem?_append_left hq, List.take_append_of_le_length hq.le]

theorem removedAt_last (l : List Life) (x : Life) :
    RemovedAt careful (l ++ [x]) l.length ↔ Listening l ∧ (x = .stop ∨ careful = false ∧ x = .start) := by
  simp only [RemovedAt, StoppedAt, StartedTwiceAt, List.take_left]
  simp
  tauto

theorem lasts_snoc {l : List Life} {x : Life} {i : Nat} (hi : i < l.length) :
    Lasts careful (l ++ [x]) i ↔ Lasts careful l i ∧ ¬ RemovedAt careful (l ++ [x]) l.length := by
  constructor
  · intro h
    exact ⟨fun q hq hr => h q hq ((removedAt_append (removedAt_lt hr)).mpr hr), h _ hi⟩
  · rintro ⟨h1, h2⟩ q hq hr
    rcases Nat.lt_or_ge q l.length with hl | hl
    · exact h1 q hq ((removedAt_append hl).mp hr)
    · have := removedAt_lt hr
      simp only [List.length_append, List.length_singleton] at this
      obtain rfl : q = l.length := by omega
      exact h2 hr

/-- The steps that stand are the requests that met tables which last. -/
theorem stands_iff (hs : List Life) (i : Nat) : Stands (asSteps careful app hs) i ↔
    (∃ e, hs[i]? = some (.request e)) ∧ Ready careful app (hs.take i) ∧ Lasts careful hs i := by
  induction hs using List.reverseRecOn with
  | nil =>
    constructor
    · intro h
      have := stands_lt h
      rw [asSteps_length] at this
      simp at this
    · rintro ⟨⟨e, h⟩, -⟩
      simp at h
  | append_singleton l x ih =>
    -- steps that change nothing, and steps that remove everything
    have same : Stands (asSteps careful app l ++ [.restore l.length]) i ↔ Stands (asSteps careful app l) i := by
      rw [stands_known, known_restore, List.take_of_length_le (by rw [asSteps_length]), ← stands_known]
    have gone : ¬ Stands (asSteps careful app l ++ [.restore 0]) i := by
      rw [stands_known, known_restore]
      rintro ⟨e, h⟩
      cases h
    have old : i < l.length → ((∃ e, (l ++ [x])[i]? = some (.request e)) ∧ Ready careful app ((l ++ [x]).take i) ∧
        Lasts careful (l ++ [x]) i ↔ Stands (asSteps careful app l) i ∧ ¬ RemovedAt careful (l ++ [x]) l.length) := by
      intro hi
      rw [ih, lasts_snoc hi, List.getElem?_append_left hi, List.take_append_of_le_length hi.le]
      tauto
    have lt : Stands (asSteps careful app l) i → i < l.length := by
      intro h
      have := stands_lt h
      rwa [asSteps_length] at this
    have len : (∃ e, (l ++ [x])[i]? = some (.request e)) → i < l.length ∨ i = l.length ∧ ∃ e, x = .request e := by
      rintro ⟨e, h⟩
      rcases Nat.lt_trichotomy i l.length with h1 | h1 | h1
      · exact Or.inl h1
      · subst h1
        exact Or.inr ⟨rfl, e, by simpa using h⟩
      · rw [List.getElem?_eq_none (by simp; omega)] at h
        cases h
    rw [asSteps_snoc]
    have keep : (∀ e, x ≠ .request e) → ¬ RemovedAt careful (l ++ [x]) l.length →
        (Stands (asSteps careful app l) i ↔ (∃ e, (l ++ [x])[i]? = some (.request e)) ∧
          Ready careful app ((l ++ [x]).take i) ∧ Lasts careful (l ++ [x]) i) := by
      intro hx hr
      constructor
      · intro h
        exact (old (lt h)).mpr ⟨h, hr⟩
      · intro h
        rcases len h.1 with h1 | ⟨-, e, h1⟩
        · exact ((old h1).mp h).1
        · exact absurd h1 (hx e)
    have drop : (∀ e, x ≠ .request e) → RemovedAt careful (l ++ [x]) l.length →
        (Stands (asSteps careful app l ++ [.restore 0]) i ↔ (∃ e, (l ++ [x])[i]? = some (.request e)) ∧
          Ready careful app ((l ++ [x]).take i) ∧ Lasts careful (l ++ [x]) i) := by
      intro hx hr
      refine ⟨fun h => absurd h gone, fun h => ?_⟩
      rcases len h.1 with h1 | ⟨-, e, h1⟩
      · exact absurd hr ((old h1).mp h).2
      · exact absurd h1 (hx e)
    cases x with
    | request e =>
      have hr : ¬ RemovedAt careful (l ++ [Life.request e]) l.length := by
        rw [removedAt_last]
        simp
      have latestReady : ∀ h : i = l.length, Ready careful app ((l ++ [Life.request e]).take i) ↔ Ready careful app l := by
        rintro rfl
        rw [List.take_left]
      have lastsNow : ∀ h : i = l.length, Lasts careful (l ++ [Life.request e]) i := by
        rintro rfl q hq hr
        have := removedAt_lt hr
        simp only [List.length_append, List.length_singleton] at this
        omega
      by_cases hready : Ready careful app l
      · have : toStep careful (host careful app l) l.length (.request e) = Step.request e := by
          simp [toStep, hready.1, hready.2]
        rw [this, stands_known, known_request]
        simp only [List.mem_append, List.mem_singleton, Prod.mk.injEq, asSteps_length]
        constructor
        · rintro ⟨e', h | ⟨rfl, rfl⟩⟩
          · have h := stands_known.mpr ⟨e', h⟩
            exact (old (lt h)).mpr ⟨h, hr⟩
          · exact ⟨⟨e', by simp⟩, (latestReady rfl).mpr hready, lastsNow rfl⟩
        · intro h
          rcases len h.1 with h1 | ⟨h1, -⟩
          · obtain ⟨e', h2⟩ := stands_known.mp ((old h1).mp h).1
            exact ⟨e', Or.inl h2⟩
          · exact ⟨e, Or.inr ⟨h1, rfl⟩⟩
      · have : toStep careful (host careful app l) l.length (.request e) = Step.restore l.length := by
          rw [toStep, if_neg]
          rw [Ready] at hready
          simpa using hready
        rw [this, same]
        constructor
        · intro h
          exact (old (lt h)).mpr ⟨h, hr⟩
        · intro h
          rcases len h.1 with h1 | ⟨h1, -⟩
          · exact ((old h1).mp h).1
          · exact absurd ((latestReady h1).mp h.2.1) hready
    | start =>
      by_cases hl : Listening l
      · have hs := (serving_iff (careful := careful) (app := app) l).mpr hl
        cases careful with
        | false =>
          have : toStep false (host false app l) l.length .start = .restore 0 := by simp [toStep, hs]
          rw [this]
          exact drop (by simp) ((removedAt_last _ _).mpr ⟨hl, Or.inr ⟨rfl, rfl⟩⟩)
        | true =>
          have : toStep true (host true app l) l.length .start = .restore l.length := by simp [toStep]
          rw [this, same]
          exact keep (by simp) (by rw [removedAt_last]; simp)
      · have hs : (host careful app l).serving = false := by
          rw [← Bool.not_eq_true, serving_iff]
          exact hl
        have : toStep careful (host careful app l) l.length .start = .restore l.length := by simp [toStep, hs]
        rw [this, same]
        exact keep (by simp) (by rw [removedAt_last]; exact fun h => hl h.1)
    | stop =>
      by_cases hl : Listening l
      · have hs := (serving_iff (careful := careful) (app := app) l).mpr hl
        have : toStep careful (host careful app l) l.length .stop = .restore 0 := by simp [toStep, hs]
        rw [this]
        exact drop (by simp) ((removedAt_last _ _).mpr ⟨hl, Or.inl rfl⟩)
      · have hs : (host careful app l).serving = false := by
          rw [← Bool.not_eq_true, serving_iff]
          exact hl
        have : toStep careful (host careful app l) l.length .stop = .restore l.length := by simp [toStep, hs]
        rw [this, same]
        exact keep (by simp) (by rw [removedAt_last]; exact fun h => hl h.1)
    | kill =>
      have : toStep careful (host careful app l) l.length .kill = .restore l.length := rfl
      rw [this, same]
      exact keep (by simp) (by rw [removedAt_last]; simp)

/-- Where a process that cannot serve leaves the tables alone, or there is none, there are tables. -/
theorem ready_iff (h : careful = true ∨ OneProcess hs) : Ready careful app hs ↔ Listening hs := by
  rw [Ready, serving_iff]
  refine ⟨And.left, fun hl => ⟨hl, ?_⟩⟩
  induction hs using List.reverseRecOn with
  | nil => exact absurd hl listening_nil
  | append_singleton l x ih =>
    have h' : careful = true ∨ OneProcess l := by
      refine h.imp_right fun h q ⟨h1, h2⟩ => h q ?_
      have hq := (List.getElem?_eq_some_iff.mp h1).1
      rw [StartedTwiceAt, List.getElem?_append_left hq, List.take_append_of_le_length hq.le]
      exact ⟨h1, h2⟩
    rw [host_snoc]
    cases x with
    | request e =>
      rw [listening_snoc] at hl
      have hl : Listening l := by simpa using hl
      have := ih h' hl
      have hs := (serving_iff (careful := careful) (app := app) l).mpr hl
      rcases hh : host careful app l with ⟨s, f⟩
      rw [hh] at this hs
      obtain ⟨db, rfl⟩ := Option.isSome_iff_exists.mp this
      subst hs
      rfl
    | start =>
      rcases hh : host careful app l with ⟨s, f⟩
      cases s with
      | false => rfl
      | true =>
        rcases h with rfl | h
        · rfl
        · refine absurd ⟨by simp, ?_⟩ (h l.length)
          rw [List.take_left, ← serving_iff (careful := careful) (app := app), hh]
    | stop => simp [listening_snoc] at hl
    | kill => simp [listening_snoc] at hl

/-! ## What the steps are -/

theorem requestAt_life {i : Nat} {e : Event} :
    RequestAt (asSteps careful app hs) i e ↔ hs[i]? = some (.request e) ∧ Ready careful app (hs.take i) := by
  rw [RequestAt]
  constructor
  · intro h
    have hi := (List.getElem?_eq_some_iff.mp h).1
    rw [asSteps_length] at hi
    rw [asSteps_getElem (List.getElem?_eq_getElem hi)] at h
    simp only [Option.some.injEq] at h
    rw [List.getElem?_eq_getElem hi]
    generalize hs[i] = x at h
    cases x with
    | request e' =>
      rw [toStep] at h
      split at h
      · rename_i hr
        cases h
        exact ⟨rfl, by simpa [Ready] using hr⟩
      · cases h
    | start => rw [toStep] at h; split at h <;> cases h
    | stop => rw [toStep] at h; split at h <;> cases h
    | kill => cases h
  · rintro ⟨h1, h2⟩
    rw [asSteps_getElem h1, toStep, if_pos]
    simpa [Ready] using h2

theorem issuedIn_iff {i n : Nat} {ch : Bytes} {t : Int} {name : String} :
    IssuedIn (lifeReply careful app) hs i n ch t name ↔
    IssuesAt (restoredReply app) (asSteps careful app hs) i n ch t name := by
  constructor
  · rintro ⟨e, h1, ⟨key, v, h2⟩, h3⟩
    have hr := ready_of_json h2
    dsimp only at h2
    rw [ready_reply hr] at h2
    refine ⟨e, requestAt_life.mpr ⟨h1, hr⟩, ⟨key, v, ?_⟩, h3⟩
    rw [replyAt, ← asSteps_take]
    exact h2
  · rintro ⟨e, h1, ⟨key, v, h2⟩, h3⟩
    obtain ⟨h4, h5⟩ := requestAt_life.mp h1
    refine ⟨e, h4, ⟨key, v, ?_⟩, h3⟩
    dsimp only
    rw [ready_reply h5, asSteps_take]
    exact h2

theorem registeredIn_iff {i : Nat} {id : Bytes} {name : String} {k : CPK} :
    RegisteredIn (lifeReply careful app) app hs i id name k ↔
    RegistersAt (restoredReply app) app (asSteps careful app hs) i id name k := by
  constructor
  · rintro ⟨e, h1, f, t, n, c, cdj, ob, o, raw, acd, h2, h3, h4⟩
    have hr := ready_of_success h3
    dsimp only at h3
    rw [ready_reply hr] at h3
    refine ⟨e, requestAt_life.mpr ⟨h1, hr⟩, f, t, n, c, cdj, ob, o, raw, acd, h2, ?_, h4⟩
    rw [replyAt, ← asSteps_take]
    exact h3
  · rintro ⟨e, h1, f, t, n, c, cdj, ob, o, raw, acd, h2, h3, h4⟩
    obtain ⟨h5, h6⟩ := requestAt_life.mp h1
    refine ⟨e, h5, f, t, n, c, cdj, ob, o, raw, acd, h2, ?_, h4⟩
    dsimp only
    rw [ready_reply h6, asSteps_take]
    exact h3

theorem loggedInIn_step {k : CPK} {c : Credential} {i : Nat}
    (h : LoggedInIn careful (lifeReply careful app) app hs k c i) :
    KeyLoginAt (restoredReply app) app (asSteps careful app hs) k c i := by
  obtain ⟨f, t, n, name, j, name', h1, h2, h3, h4, h5, h6⟩ := h
  have hr := ready_of_success h2
  rw [ready_reply hr, asSteps_take] at h2
  refine ⟨f, t, n, name, j, name', requestAt_life.mpr ⟨h1, hr⟩, h2, h3, ?_, registeredIn_iff.mp h4⟩
  rw [← asSteps_take, stands_iff]
  obtain ⟨e, g1, f', t', n', c', cdj, ob, o, raw, acd, -, g2, -⟩ := h4
  refine ⟨⟨e, by rw [List.getElem?_take, if_pos h5]; exact g1⟩, ?_, h6⟩
  rw [List.take_take, Nat.min_eq_left h5.le]
  exact ready_of_success g2

theorem mem_requestsOf {e : Event} : e ∈ requestsOf hs ↔ Life.request e ∈ hs := by
  rw [requestsOf, List.mem_filterMap]
  constructor
  · rintro ⟨x, h1, h2⟩
    cases x with
    | request e' => cases h2; exact h1
    | _ => cases h2
  · exact fun h => ⟨_, h, rfl⟩

theorem drawnOnce_life {i j : Nat} {e e' : Event} {ch : Bytes} {t t' : Int}
    (h : NotDrawnAgain (requestsOf hs)) (hi : hs[i]? = some (.request e)) (hj : hs[j]? = some (.request e'))
    (ha : asked e = some (ch, t)) (ha' : asked e' = some (ch, t')) : i = j := by
  have key : ∀ {i j : Nat} {e e' : Event} {t t' : Int}, hs[i]? = some (Life.request e) → hs[j]? = some (Life.request e') →
      asked e = some (ch, t) → asked e' = some (ch, t') → ¬ i < j := by
    intro i j e e' t t' hi hj ha ha' hij
    rw [NotDrawnAgain, requestsOf, List.pairwise_filterMap, List.pairwise_iff_getElem] at h
    obtain ⟨hi1, hi2⟩ := List.getElem?_eq_some_iff.mp hi
    obtain ⟨hj1, hj2⟩ := List.getElem?_eq_some_iff.mp hj
    exact h i j hi1 hj1 hij e (by rw [hi2]) e' (by rw [hj2]) ch t t' ha ha'
  rcases Nat.lt_trichotomy i j with h1 | h1 | h1
  · exact absurd h1 (key hi hj ha ha')
  · exact h1
  · exact absurd h1 (key hj hi ha' ha)

end

/-! ## C109 -/

section
variable {careful : Bool} {app : App} {hs : List Life}

/-- C109: while a process serves, the application answers as if of the requests only those had been sent that
were sent while one served, since the tables were last removed.  Where processes are started while one
serves, they are to leave the tables alone. -/
theorem C109_as_if (h : careful = true ∨ OneProcess hs) (hl : Listening hs) :
    ∃ l : List (Nat × Event), (l.Pairwise fun x y => x.1 < y.1) ∧
      (∀ i e, (i, e) ∈ l ↔ hs[i]? = some (.request e) ∧ Listening (hs.take i) ∧ Lasts careful hs i) ∧
      ∀ e, lifeReply careful app hs e = reply app (l.map Prod.snd) e := by
  obtain ⟨l, h1, h2, h3⟩ := C101_as_if app (asSteps careful app hs)
  refine ⟨l, h1, fun i e => ?_, fun e => (ready_reply ((ready_iff h).mpr hl) e).trans (h3 e)⟩
  have h' : careful = true ∨ OneProcess (hs.take i) := by
    refine h.imp_right fun h q ⟨g1, g2⟩ => h q ?_
    have hq := (List.getElem?_eq_some_iff.mp g1).1
    rw [List.length_take] at hq
    rw [List.getElem?_take, if_pos (by omega)] at g1
    rw [List.take_take, Nat.min_eq_left (by omega)] at g2
    exact ⟨g1, g2⟩
  rw [h2, stands_iff, requestAt_life, ready_iff h']
  constructor
  · rintro ⟨⟨-, -, g1⟩, g2, g3⟩
    exact ⟨g2, g3, g1⟩
  · rintro ⟨g2, g3, g1⟩
    exact ⟨⟨⟨e, g2⟩, g3, g1⟩, g2, g3⟩

/-- C109: a login is with a credential that was registered by the user since the tables were last
removed, and signed with its key. -/
theorem C109_registered (codec : CodecLaws app.env) {f : Form} {now : Int}
    (h : lifeReply careful app hs (.authenticationResponse f now) = success) :
    ∃ n c name i k cdj raw sig handle, Submits app f n c name ∧
      RegisteredIn (lifeReply careful app) app hs i c.rawId name k ∧ Lasts careful hs i ∧
      c.response = .assertion cdj raw sig handle ∧ SignedBy app.env k sig (raw ++ app.env.sha256 cdj) := by
  rw [ready_reply (ready_of_success h)] at h
  obtain ⟨n, c, name, i, k, cdj, raw, sig, hd, h1, h2, h3, h4⟩ := C101_registered codec h
  exact ⟨n, c, name, i, k, cdj, raw, sig, hd, h1, registeredIn_iff.mpr h3, ((stands_iff _ _).mp h2).2.2, h4⟩

/-- C109: a success is for a challenge that was issued since the tables were last removed, and at most 60000 ms
before. -/
theorem C109_fresh {e : Event} {t : Int} {n : Nat} {c : Credential} {name : String}
    (h : SucceedsBy (fun _ => lifeReply careful app hs) app [] e t n c name) :
    ∃ i ch t' name' d text, IssuedIn (lifeReply careful app) hs i n ch t' name' ∧ Lasts careful hs i ∧
      t - t' ≤ 60000 ∧ ClientJson app.env c.response.clientDataJSON d ∧ Lookup d (.str "challenge") (.str text) ∧
      Base64UrlText text ch := by
  obtain ⟨hs', hf⟩ := h
  dsimp only at hs'
  rw [ready_reply (ready_of_success hs')] at hs'
  obtain ⟨i, ch, t', name', d, text, h1, h2, h3⟩ := C101_fresh (app := app) (steps := asSteps careful app hs)
    (show SucceedsBy (fun _ => restoredReply app (asSteps careful app hs)) app [] e t n c name from ⟨hs', hf⟩)
  exact ⟨i, ch, t', name', d, text, issuedIn_iff.mpr h2, ((stands_iff _ _).mp h1).2.2, h3⟩

/-- C109: one approval is good for one login, however the application is started and stopped. -/
theorem C109_one_login (codec : CodecLaws app.env) (json : JsonLaw app.env) {k : CPK} {acts : Approval → Prop}
    {id : Bytes} (holder : Holder app.env k (Sent app (requestsOf hs)) acts) (drawn : NotDrawnAgain (requestsOf hs)) :
    OneEach app.env acts (LoggedInIn careful (lifeReply careful app) app hs k) id := by
  have holder' : Holder app.env k (Sent app (requests (asSteps careful app hs))) acts := by
    refine holder_mono holder ?_
    rintro cdj raw sig ⟨f, t, n, c, name, handle, hm, h⟩
    refine ⟨f, t, n, c, name, handle, ?_, h⟩
    obtain ⟨s, hs1, hs2⟩ := List.mem_filterMap.mp hm
    obtain ⟨i, hi⟩ := List.mem_iff_getElem?.mp hs1
    cases s with
    | restore m => cases hs2
    | request e =>
      cases hs2
      exact mem_requestsOf.mpr (List.mem_of_getElem? (requestAt_life.mp hi).1)
  obtain ⟨approval, h1, h2⟩ := one_login (id := id) codec json holder'
    (fun i j e e' ch t t' hi hj => drawnOnce_life drawn (requestAt_life.mp hi).1 (requestAt_life.mp hj).1) (by
      intro j p f t n c name ch t' name' q m _ _ _ _ _ hq hmq _ hst
      have hql := (List.getElem?_eq_some_iff.mp hq).1
      rw [asSteps_length] at hql
      rw [asSteps_getElem (List.getElem?_eq_getElem hql)] at hq
      have hm : m = 0 := by
        generalize hs[q] = x at hq
        simp only [Option.some.injEq] at hq
        cases x <;> simp only [toStep] at hq <;> (try split at hq) <;> cases hq <;> first | rfl | omega
      subst hm
      have := stands_lt hst
      simp at this)
  exact ⟨approval, fun i c hi => h1 i c (loggedInIn_step hi),
    fun i j c c' hi hid hj => h2 i j c c' (loggedInIn_step hi) hid (loggedInIn_step hj)⟩

/-! ### The steps -/

theorem host_reply_append {a a' b : List Life} {e : Event} (h : host careful app a = host careful app a') :
    lifeReply careful app (a ++ b) e = lifeReply careful app (a' ++ b) e := by
  rw [lifeReply, lifeReply, host_append, host_append, h]

/-- C109: a process that is killed and started again goes on as if nothing had happened. -/
theorem C109_killed (h : careful = true ∨ OneProcess hs) (hl : Listening hs) (b : List Life) (e : Event) :
    lifeReply careful app (hs ++ .kill :: .start :: b) e = lifeReply careful app (hs ++ b) e := by
  have : hs ++ .kill :: .start :: b = (hs ++ [.kill, .start]) ++ b := by simp
  rw [this]
  apply host_reply_append
  obtain ⟨h1, h2⟩ := (ready_iff (app := app) h).mpr hl
  rw [host_append]
  rcases hh : host careful app hs with ⟨s, f⟩
  rw [hh] at h1 h2
  obtain ⟨db, rfl⟩ := Option.isSome_iff_exists.mp h2
  subst h1
  rfl

/-- C109: a process that is stopped and started again is as new. -/
theorem C109_stopped (hl : Listening hs) (b : List Life) (e : Event) :
    lifeReply careful app (hs ++ .stop :: .start :: b) e = lifeReply careful app (.start :: b) e := by
  have : hs ++ .stop :: .start :: b = (hs ++ [.stop, .start]) ++ b := by simp
  rw [this, show Life.start :: b = [.start] ++ b from rfl]
  apply host_reply_append
  have h1 := (serving_iff (careful := careful) (app := app) hs).mpr hl
  rw [host_append]
  rcases hh : host careful app hs with ⟨s, f⟩
  rw [hh] at h1
  subst h1
  rfl

/-- C109: after a process was started while one serves, the one that serves answers no request for a challenge
but with an error, and no response with success, until it is started again. -/
theorem C109_disturbed (hl : Listening hs) (evs : List Event) (e : Event) :
    lifeReply false app (hs ++ .start :: evs.map .request) e ≠ success ∧
    (∀ name h ch t, e = .registrationRequest (some name) h ch t ∨ e = .authenticationRequest (some name) ch t →
      lifeReply false app (hs ++ .start :: evs.map .request) e = .crash operationalError) := by
  have key : host false app (hs ++ .start :: evs.map .request) = ⟨true, none⟩ := by
    induction evs using List.reverseRecOn with
    | nil =>
      have h1 := (serving_iff (careful := false) (app := app) hs).mpr hl
      rw [List.map_nil, host_snoc]
      rcases hh : host false app hs with ⟨s, f⟩
      rw [hh] at h1
      subst h1
      rfl
    | append_singleton l x ih =>
      rw [List.map_append, List.map_singleton, ← List.cons_append, ← List.append_assoc, host_snoc, ih]
      rfl
  constructor
  · intro h
    have := (ready_of_success h).2
    rw [key] at this
    cases this
  · rintro name h ch t (rfl | rfl) <;> rw [lifeReply, key] <;> rfl

theorem listening_extend {a b : List Life} (h1 : .stop ∉ b) (h2 : .kill ∉ b) (h : Listening a) : Listening (a ++ b) := by
  obtain ⟨x, y, rfl, h3, h4⟩ := h
  refine ⟨x, y ++ b, by simp, ?_, ?_⟩
  · simpa using ⟨h3, h1⟩
  · simpa using ⟨h4, h2⟩

/-- C109: a process that is started while one serves makes no difference once the latter has been stopped and started
again.  Missing: before that (`C109_refuted`); `Undisturbed` is the full statement. -/
theorem C109_partial {a b : List Life} (h : Listening a) (h1 : .stop ∉ b) (h2 : .kill ∉ b) (d : List Life) (e : Event) :
    lifeReply careful app ((a ++ .start :: b) ++ .stop :: .start :: d) e =
      lifeReply careful app ((a ++ b) ++ .stop :: .start :: d) e := by
  rw [C109_stopped, C109_stopped (listening_extend h1 h2 h)]
  exact listening_extend (by simpa using h1) (by simpa using h2) h

/-- C109: where a process that cannot serve leaves the tables alone, it makes no difference. -/
theorem C109_careful (app : App) : Undisturbed (lifeReply true app) := by
  intro a b e hl
  rw [show a ++ .start :: b = (a ++ [.start]) ++ b by simp]
  apply host_reply_append
  obtain ⟨h1, h2⟩ := (ready_iff (app := app) (careful := true) (Or.inl rfl)).mpr hl
  rw [host_snoc]
  rcases hh : host true app a with ⟨s, f⟩
  rw [hh] at h1 h2
  obtain ⟨db, rfl⟩ := Option.isSome_iff_exists.mp h2
  subst h1
  rfl

end

end WebAuthn.Flask
