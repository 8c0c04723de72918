import Mathlib.Algebra.BigOperators.Intervals
import Verif.Lemmas.Random
import Verif.Props.FlaskOutcome
import Verif.Props.Phishing

/-!
# Chance (C81)

Guessing a challenge before it is issued, and two draws that collide.
-/

namespace WebAuthn.Flask

open WebAuthn WebAuthn.Spec WebAuthn.Props

/-! ## Histories -/

section
variable {w : World}

theorem history_snoc (l : List Coin) (c : Coin) :
    w.history (l ++ [c]) = w.history l ++ [(w.move (w.history l)).event c] := by
  simp [World.history]

theorem history_length (l : List Coin) : (w.history l).length = l.length := by
  induction l using List.reverseRecOn with
  | nil => rfl
  | append_singleton l c ih => simp [history_snoc, ih]

theorem history_append (a b : List Coin) : ∃ post, w.history (a ++ b) = w.history a ++ post := by
  induction b using List.reverseRecOn with
  | nil => exact ⟨[], by simp⟩
  | append_singleton b c ih =>
    obtain ⟨post, h⟩ := ih
    exact ⟨post ++ [(w.move (w.history (a ++ b))).event c], by
      rw [← List.append_assoc, history_snoc, h, List.append_assoc]⟩

/-- The draw of an event. -/
theorem occurs_coin {l : List Coin} {pre : List Event} {e : Event} (h : Occurs (w.history l) pre e) :
    ∃ a c b, l = a ++ c :: b ∧ pre = w.history a ∧ e = (w.move pre).event c := by
  obtain ⟨post, h⟩ := h
  have hl : pre.length < l.length := by
    rw [← history_length (w := w) l, h]
    simp
  refine ⟨l.take pre.length, l[pre.length], l.drop (pre.length + 1), by simp, ?_⟩
  obtain ⟨p, hp⟩ := history_append (w := w) (l.take pre.length ++ [l[pre.length]])
    (l.drop (pre.length + 1))
  rw [List.append_assoc, List.singleton_append, ← List.drop_eq_getElem_cons hl, List.take_append_drop,
    h, history_snoc, List.append_assoc] at hp
  obtain ⟨h1, h2⟩ := List.append_inj hp (by rw [history_length, List.length_take]; omega)
  refine ⟨h1, ?_⟩
  simp only [List.singleton_append, List.cons.injEq] at h2
  rw [h2.1, ← h1]

theorem mem_coin {l : List Coin} {e : Event} (h : e ∈ w.history l) :
    ∃ a c b, l = a ++ c :: b ∧ e = (w.move (w.history a)).event c := by
  obtain ⟨pre, post, h⟩ := List.append_of_mem h
  obtain ⟨a, c, b, h1, rfl, h3⟩ := occurs_coin ⟨post, h⟩
  exact ⟨a, c, b, h1, h3⟩

theorem issues_coin {rep : List Event → Event → Reply} {pre pre' : List Event} {c : Coin} {n : Nat}
    {ch : Bytes} {t : Int} {name : String} (h : IssuesBy rep pre ((w.move pre').event c) n ch t name) : ch = c.2.bytes := by
  obtain ⟨-, ⟨_, h⟩ | h⟩ := h <;> cases hm : w.move pre' <;>
    simp_all [Move.event]

/-! ## Guesses -/

/-- C81: in `q` requests, with at most `K` approvals before the last, the probability that a
login succeeds without an approval that its holder gave after the challenge was issued,
hence in the last 60000 ms, is at most `q * K / 256 ^ 64`. -/
theorem C81_login {app : App} (codec : CodecLaws app.env) (json : JsonLaw app.env) (w : World)
    (q K : Nat) (hK : ∀ evs : List Event, evs.length < q → (w.allApprovals evs).length ≤ K) :
    probability q (fun coins => StaleLogin app w (w.history coins)) ≤ q * K / 256 ^ 64 := by
  have := probability_hit (P := fun coins => StaleLogin app w (w.history coins)) (q := q) (fun _ => K)
    (fun _ => []) (fun l => (w.allApprovals (w.history l)).map Approval.challenge)
    (by
      intro l hl
      simpa using hK (w.history l) (by rwa [history_length]))
    (by
      rintro l - ⟨before, f, now, n, c, name, name', pre, e, k, h1, h2, h3, h4, h5, h6, h7⟩
      obtain ⟨-, a, pre', e', ch, t', name'', ha, hap, ho, hi, ht⟩ := C65_login codec json h6 h4 h5 h2 h3
      simp only [World.allApprovals, List.mem_flatMap, List.mem_range] at ha
      obtain ⟨i, hi1, hi2⟩ := ha
      obtain ⟨la, lc, lb, rfl, rfl, -⟩ := occurs_coin h1
      by_cases hlt : pre'.length < i
      · exact absurd ⟨pre', e', ch, t', name'', a, ho, hi, ht, ⟨i, hlt, by omega, hi2⟩, hap⟩ h7
      · obtain ⟨x, d, y, rfl, rfl, rfl⟩ := occurs_coin ho
        refine ⟨x, d, y ++ lc :: lb, by simp, Or.inr ?_⟩
        refine List.mem_map.mpr ⟨a, List.mem_flatMap.mpr ⟨i, List.mem_range.mpr (by omega), ?_⟩,
          hap.challenge.trans (issues_coin hi)⟩
        obtain ⟨p, hp⟩ := history_append (w := w) x (d :: y)
        rw [hp, List.take_append_of_le_length (by omega)] at hi2
        exact hi2)
  simpa using this

/-! ## Collisions -/

theorem outcome_users {app : App} {db db' : Db} {e : Event} {r : Reply} (h : Outcome app db e r db') :
    (∀ u ∈ db.users, u ∈ db'.users) ∧ ∀ u ∈ db'.users, u ∈ db.users ∨
      ∃ ch t, e = .registrationRequest (some u.username) u.handle ch t := by
  have key : ∀ {name h u users ch t}, UserFor db name h u users →
      (∀ u ∈ db.users, u ∈ users) ∧ ∀ u ∈ users, u ∈ db.users ∨
      ∃ ch' t', Event.registrationRequest (some name) h ch t =
        .registrationRequest (some u.username) u.handle ch' t' := by
    intro name h u users ch t hu
    cases hu with
    | known => exact ⟨fun _ h => h, fun _ h => Or.inl h⟩
    | new =>
      refine ⟨fun u hu => List.mem_append_left _ hu, fun u hu => ?_⟩
      rcases List.mem_append.mp hu with hu | hu
      · exact Or.inl hu
      · rw [List.mem_singleton] at hu
        subst hu
        exact Or.inr ⟨ch, t, rfl⟩
  cases h with
  | registrationChallengeTaken _ _ _ _ _ _ _ hu => exact key hu
  | registrationIssued _ _ _ _ _ _ _ hu => exact key hu
  | _ => exact ⟨fun _ h => h, fun _ h => Or.inl h⟩

/-- The handle of a user was drawn. -/
theorem user_coin (app : App) (l : List Coin) :
    ∀ u ∈ (run app (w.history l)).users, u.handle ∈ l.map fun c => c.1.bytes := by
  induction l using List.reverseRecOn with
  | nil => simp [World.history, run]
  | append_singleton l c ih =>
    intro u hu
    rw [history_snoc] at hu
    rcases (outcome_users (C64_reply app _ _)).2 u hu with hu | ⟨ch, t, he⟩
    · simp only [List.map_append, List.mem_append]
      exact Or.inl (ih u hu)
    · simp only [List.map_append, List.mem_append, List.map_cons, List.map_nil, List.mem_singleton]
      refine Or.inr ?_
      cases hm : w.move (w.history l) <;> simp_all [Move.event]

/-- A challenge was drawn. -/
theorem challenge_coin (app : App) (l : List Coin) :
    ∀ ch ∈ (run app (w.history l)).challenges, ch.request ∈ l.map fun c => c.2.bytes := by
  intro ch hch
  obtain ⟨pre, e, u, ho, -, -, hi⟩ := (inv_run app _).challenges ch hch
  obtain ⟨a, c, b, rfl, rfl, rfl⟩ := occurs_coin ho
  rw [issues_coin hi]
  simp

theorem users_grow (app : App) (a b : List Event) :
    ∀ u ∈ (run app a).users, u ∈ (run app (a ++ b)).users := by
  induction b using List.reverseRecOn with
  | nil => simp
  | append_singleton b e ih =>
    intro u hu
    rw [← List.append_assoc]
    exact (outcome_users (C64_reply app _ _)).1 u (ih u hu)

/-- No draw repeats one before it. -/
def NoRepeat (l : List Coin) : Prop :=
  ¬ Hit (Repeats (fun l => l.map fun c => c.1.bytes) (fun l => l.map fun c => c.2.bytes)) l

theorem NoRepeat.at {l a b : List Coin} {c : Coin} (h : NoRepeat l) (hl : l = a ++ c :: b) :
    c.1.bytes ∉ a.map (fun c => c.1.bytes) ∧ c.2.bytes ∉ a.map (fun c => c.2.bytes) :=
  ⟨fun hc => h ⟨a, c, b, hl, Or.inl hc⟩, fun hc => h ⟨a, c, b, hl, Or.inr hc⟩⟩

/-- A registration request is answered with a challenge, and its user exists afterwards. -/
theorem registration_served {app : App} {a : List Coin} {c : Coin} {name : String} {t : Int}
    (h1 : c.1.bytes ∉ a.map fun c => c.1.bytes) (h2 : c.2.bytes ∉ a.map fun c => c.2.bytes)
    {e : Event} (he : e = .registrationRequest (some name) c.1.bytes c.2.bytes t) :
    (∃ n, Issues app (w.history a) e n c.2.bytes t name) ∧
      ∃ u ∈ (run app (w.history a ++ [e])).users, u.username = name := by
  subst he
  have h := C64_reply app (w.history a) (.registrationRequest (some name) c.1.bytes c.2.bytes t)
  generalize hr : reply app _ _ = r at h
  generalize run app (w.history a ++ _) = db' at h ⊢
  cases h with
  | handleTaken _ _ _ _ v _ hv he => exact absurd (he ▸ user_coin app a v hv) h1
  | registrationChallengeTaken _ _ _ _ _ _ ch _ hc he =>
    exact absurd (he ▸ challenge_coin app a ch hc) h2
  | registrationIssued _ _ _ _ u users v hu hc hv =>
    refine ⟨⟨_, ⟨_, v, hr⟩, Or.inl ⟨_, rfl⟩⟩, ?_⟩
    cases hu with
    | known _ h1 h2 => exact ⟨u, h1, h2⟩
    | new => exact ⟨_, List.mem_append_right _ (List.mem_singleton.mpr rfl), rfl⟩

/-- C81: the probability that one of `q` requests that should be answered with a challenge
is not is at most `q * (q - 1) / 256 ^ 64`, whatever the requests. -/
theorem C81_served (app : App) (w : World) (q : Nat) :
    probability q (fun coins => Unserved app (w.history coins)) ≤ q * (q - 1) / 256 ^ 64 := by
  have := probability_hit (P := fun coins => Unserved app (w.history coins)) (q := q) (fun i => i * 2)
    (fun l => l.map fun c => c.1.bytes) (fun l => l.map fun c => c.2.bytes)
    (by
      intro l hl
      simp only [List.length_map]
      omega)
    (by
      rintro l - ⟨pre, e, name, ho, hreq, hno⟩
      by_contra hl
      have hl : NoRepeat l := hl
      obtain ⟨a, c, b, hab, rfl, he⟩ := occurs_coin ho
      obtain ⟨h1, h2⟩ := hl.at hab
      rcases hreq with ⟨h, ch, t, rfl⟩ | ⟨⟨ch, t, rfl⟩, h, ch', t', hmem⟩
      · have e1 : Event.registrationRequest (some name) h ch t =
            .registrationRequest (some name) c.1.bytes c.2.bytes t := by
          cases hm : w.move (w.history a) <;> simp_all [Move.event]
        obtain ⟨⟨n, hi⟩, -⟩ := registration_served (app := app) h1 h2 e1
        exact hno _ _ _ _ hi
      · have e1 : ch = c.2.bytes := by
          cases hm : w.move (w.history a) <;> simp_all [Move.event]
        subst e1
        obtain ⟨x, d, y, rfl, hd⟩ := mem_coin hmem
        have e2 : Event.registrationRequest (some name) h ch' t' =
            .registrationRequest (some name) d.1.bytes d.2.bytes t' := by
          cases hm : w.move (w.history x) <;> simp_all [Move.event]
        obtain ⟨g1, g2⟩ := hl.at (a := x) (c := d) (b := y ++ c :: b) (by rw [hab]; simp)
        obtain ⟨-, u, hu, rfl⟩ := registration_served (app := app) g1 g2 e2
        obtain ⟨p, hp⟩ := history_append (w := w) (x ++ [d]) y
        rw [history_snoc, ← hd] at hp
        have hu' := users_grow app _ p u hu
        rw [← hp, List.append_assoc, List.singleton_append] at hu'
        have h := C64_reply app (w.history (x ++ d :: y))
          (.authenticationRequest (some u.username) c.2.bytes t)
        generalize hr : reply app _ _ = r at h
        generalize hn : u.username = name at *
        generalize run app (w.history (x ++ d :: y) ++ _) = db' at h
        cases h with
        | loginNoUser _ _ _ h => exact h u hu' hn
        | loginChallengeTaken v _ _ ch hv hc he => exact h2 (he ▸ challenge_coin app _ ch hc)
        | loginIssued v _ _ rows o hv hc _ _ ho => exact hno _ _ _ _ ⟨⟨_, o, hr⟩, Or.inr rfl⟩)
  rw [← Finset.sum_mul, Finset.sum_range_id_mul_two] at this
  refine this.trans (le_of_eq ?_)
  cases q <;> simp

end

end WebAuthn.Flask
