import Verif.Props.Heap

/-!
# Builders and whole programs that change objects (C55)
-/

namespace WebAuthn.Props

open WebAuthn WebAuthn.Spec WebAuthn.Heap

/-- A program from the heap `h` on, which makes objects, calls setters, and changes
objects at addresses that it `may` change. -/
inductive Program (may : Addr → Prop) (h : Heap) : Heap → Prop
  | refl : Program may h h
  | alloc (h' : Heap) (c : Cell) : Program may h h' → (∀ a, .ref a ∈ c.slots → a < h'.length) →
      Program may h (h' ++ [c])
  | set (h' : Heap) (b : Addr) (i : Nat) (v : Val) (h'' : Heap) (b' : Addr) : Program may h h' →
      b < h'.length → (∀ a, v = .ref a → a < h'.length) → setAttr h' b i v = some (h'', b') →
      Program may h h''
  | change (h' : Heap) (a : Addr) (c : Cell) : Program may h h' → may a →
      (∀ a, .ref a ∈ c.slots → a < h'.length) → Program may h (mutate h' a c)

theorem validVal_of {h : Heap} {v : Val} (hv : ∀ a, v = .ref a → a < h.length) : ValidVal h v := by
  cases v with
  | ref a => exact hv a rfl
  | _ => trivial

theorem validVal_mono {h h' : Heap} (hl : h.length ≤ h'.length) {v : Val} (hv : ValidVal h v) :
    ValidVal h' v := by
  cases v with
  | ref a => exact Nat.lt_of_lt_of_le hv hl
  | _ => trivial

theorem program_frame {may : Addr → Prop} {h k : Heap} (hw : WellFormed h) (hp : Program may h k) :
    WellFormed k ∧ h.length ≤ k.length ∧ ∀ a, a < h.length → ¬ may a → k[a]? = h[a]? := by
  induction hp with
  | refl => exact ⟨hw, Nat.le_refl _, fun _ _ _ => rfl⟩
  | alloc h' c _ hc ih =>
    obtain ⟨h1, h2, h3⟩ := ih
    have hl : h'.length ≤ (h' ++ [c]).length := by simp
    refine ⟨fun d hd v hv => ?_, Nat.le_trans h2 hl, fun a ha hm => ?_⟩
    · rcases List.mem_append.mp hd with hd | hd
      · exact validVal_mono hl (h1 d hd v hv)
      · rw [List.mem_singleton] at hd
        subst hd
        exact validVal_mono hl (validVal_of fun a e => hc a (e ▸ hv))
    · rw [List.getElem?_append_left (Nat.lt_of_lt_of_le ha h2), h3 a ha hm]
  | set h' b i v h'' b' _ hb hv hs ih =>
    obtain ⟨h1, h2, h3⟩ := ih
    obtain ⟨g1, g2, g3⟩ := setAttr_frame h1 hb (validVal_of hv) hs
    exact ⟨g1, Nat.le_trans h2 g2, fun a ha hm => by
      rw [g3 a (Nat.lt_of_lt_of_le ha h2), h3 a ha hm]⟩
  | change h' a c _ hm hc ih =>
    obtain ⟨h1, h2, h3⟩ := ih
    have hl : h'.length ≤ (mutate h' a c).length := by simp [mutate]
    refine ⟨fun d hd v hv => ?_, Nat.le_trans h2 hl, fun x hx hmx => ?_⟩
    · rcases List.mem_or_eq_of_mem_set hd with hd | rfl
      · exact validVal_mono hl (h1 d hd v hv)
      · exact validVal_mono hl (validVal_of fun a e => hc a (e ▸ hv))
    · rw [mutate, List.getElem?_set_ne, h3 x hx hmx]
      rintro rfl
      exact hmx hm

/-! ## Two heaps that agree on what can be reached -/

/-- The heaps agree on the objects that can be reached from the value. -/
def AgreeOn (h k : Heap) (v : Val) : Prop := ∀ a, Reach h v a → k[a]? = h[a]?

theorem AgreeOn.view {h k : Heap} (hw : WellFormed h) {v : Val} (hv : ValidVal h v)
    (ha : AgreeOn h k v) (n : Nat) (cs cs' : Heap) : view (h ++ cs) n v = view (k ++ cs') n v := by
  rw [view_append hw _ n hv]
  refine (view_frame (fun a hr => ?_) n).symm
  have hl := reach_lt hw hr hv
  have he := ha a hr
  rw [List.getElem?_eq_getElem hl] at he ⊢
  obtain ⟨hk, he⟩ := List.getElem?_eq_some_iff.mp he
  rw [List.getElem?_append_left hk, List.getElem?_eq_getElem hk, he]

theorem AgreeOn.slot {h k : Heap} {b : Addr} {c : Cell} (hc : h[b]? = some c)
    (ha : AgreeOn h k (.ref b)) {v : Val} (hv : v ∈ c.slots) : AgreeOn h k v :=
  fun a hr => ha a (.step b a c v hc hv hr)

theorem build_creation_agree {h k : Heap} (hw : WellFormed h) {b : Addr} (hb : AgreeOn h k (.ref b))
    {user challenge : Val} (hu : ValidVal h user) (hc : ValidVal h challenge)
    (hau : AgreeOn h k user) (hac : AgreeOn h k challenge) :
    (buildCreation h b user challenge = none ↔ buildCreation k b user challenge = none) ∧
    ∀ x o, buildCreation h b user challenge = some (x, o) →
      ∃ x' o', buildCreation k b user challenge = some (x', o') ∧ SameView x (.ref o) x' (.ref o') := by
  have hcell := hb b (.here b)
  unfold buildCreation
  rw [hcell]
  cases hcb : h[b]? with
  | none => simp
  | some c =>
    obtain ⟨t, slots⟩ := c
    have hs : ∀ v ∈ slots, ValidVal h v ∧ AgreeOn h k v := fun v hv =>
      ⟨hw _ (List.mem_of_getElem? hcb) v hv, hb.slot hcb hv⟩
    split
    · rename_i e
      cases e
      split_ifs with hif
      · simp
      · simp only [Option.some.injEq, Prod.mk.injEq, true_and]
        rintro x o ⟨rfl, rfl⟩
        refine ⟨_, _, ⟨rfl, rfl⟩, view_options (pre := []) ?_⟩
        intro v hv n cs cs'
        have hv' : ValidVal h v ∧ AgreeOn h k v := by
          simp only [List.nil_append, List.mem_cons, List.not_mem_nil, or_false] at hv hs
          rcases hv with rfl | rfl | rfl | rfl | rfl | rfl | rfl | rfl | rfl <;>
            first | exact ⟨hu, hau⟩ | exact ⟨hc, hac⟩ | exact hs _ (by simp)
        exact hv'.2.view hw hv'.1 n cs cs'
    · simp

theorem build_request_agree {h k : Heap} (hw : WellFormed h) {b : Addr} (hb : AgreeOn h k (.ref b))
    {challenge allow : Val} (hc : ValidVal h challenge) (hu : ValidVal h allow)
    (hac : AgreeOn h k challenge) (hau : AgreeOn h k allow) :
    (buildRequest h b challenge allow = none ↔ buildRequest k b challenge allow = none) ∧
    ∀ x o, buildRequest h b challenge allow = some (x, o) →
      ∃ x' o', buildRequest k b challenge allow = some (x', o') ∧ SameView x (.ref o) x' (.ref o') := by
  have hcell := hb b (.here b)
  unfold buildRequest
  rw [hcell]
  cases hcb : h[b]? with
  | none => simp
  | some c =>
    obtain ⟨t, slots⟩ := c
    have hs : ∀ v ∈ slots, ValidVal h v ∧ AgreeOn h k v := fun v hv =>
      ⟨hw _ (List.mem_of_getElem? hcb) v hv, hb.slot hcb hv⟩
    split
    · rename_i e
      cases e
      split_ifs with hif
      · simp
      · simp only [Option.some.injEq, Prod.mk.injEq, true_and]
        rintro x o ⟨rfl, rfl⟩
        refine ⟨_, _, ⟨rfl, rfl⟩, view_options (pre := [_]) ?_⟩
        intro v hv n cs cs'
        have hv' : ValidVal h v ∧ AgreeOn h k v := by
          simp only [List.singleton_append, List.mem_cons, List.not_mem_nil, or_false] at hv hs
          rcases hv with rfl | rfl | rfl | rfl | rfl | rfl | rfl <;>
            first | exact ⟨hu, hau⟩ | exact ⟨hc, hac⟩ | exact hs _ (by simp)
        exact hv'.2.view hw hv'.1 n cs cs'
    · simp

/-! ## Programs -/

/-- What a program may change after the setter call from `h` to `h'`: all that existed
before and is no part of the value `v` that was set, and all that is made later. -/
def OldOrLater (h h' : Heap) (v : Val) (a : Addr) : Prop :=
  (a < h.length ∧ ¬ Reach h' v a) ∨ h'.length ≤ a

theorem derived_agree {h h' k : Heap} (hw : WellFormed h) {b : Addr} (hb : b < h.length) {i : Nat} {v : Val}
    (hv : ValidVal h v) {b' : Addr} (hs : setAttr h b i v = some (h', b'))
    (hp : Program (OldOrLater h h' v) h' k) : ValidVal h' (.ref b') ∧ AgreeOn h' k (.ref b') := by
  obtain ⟨hw', -, -⟩ := setAttr_frame hw hb hv hs
  have hb' : b' < h'.length := by
    obtain ⟨h1, b1, c1, m, e, inv, hm, -, -⟩ := setAttr_facts hw (List.getElem?_eq_getElem hb) i v
    rw [hs] at e
    cases e
    rw [List.length_set]
    exact (inv.rng b b' hm).2.2
  refine ⟨hb', fun a hr => ?_⟩
  have hl : a < h'.length := reach_lt hw' hr hb'
  refine (program_frame hw' hp).2.2 a hl ?_
  rintro (⟨h1, h2⟩ | h1)
  · rcases setAttr_reach hw hb hs hr with h3 | h3
    · exact absurd h1 (Nat.not_lt.mpr h3)
    · exact h2 h3
  · exact absurd hl (Nat.not_lt.mpr h1)

/-- C55: whatever a program does after a setter call, if it does not change the value that
was set or the parts of the new builder, the new builder looks the same. -/
theorem C55_derived_forever (h h' k : Heap) (hw : WellFormed h) (b : Addr) (hb : b < h.length) (i : Nat)
    (v : Val) (hv : ValidVal h v) (b' : Addr) (hs : setAttr h b i v = some (h', b'))
    (hp : Program (OldOrLater h h' v) h' k) : SameView h' (.ref b') k (.ref b') := by
  obtain ⟨h1, h2⟩ := derived_agree hw hb hv hs hp
  exact fun n => (view_frame h2 n).symm

/-- C55: and it builds the same creation options. -/
theorem C55_derived_builds_creation (h h' k : Heap) (hw : WellFormed h) (b : Addr) (hb : b < h.length)
    (i : Nat) (v : Val) (hv : ValidVal h v) (b' : Addr) (hs : setAttr h b i v = some (h', b'))
    (hp : Program (OldOrLater h h' v) h' k) (user challenge : Val) (hu : ValidVal h' user)
    (hc : ValidVal h' challenge) (hau : ∀ a, Reach h' user a → ¬ OldOrLater h h' v a)
    (hac : ∀ a, Reach h' challenge a → ¬ OldOrLater h h' v a) :
    (buildCreation h' b' user challenge = none ↔ buildCreation k b' user challenge = none) ∧
    ∀ x o, buildCreation h' b' user challenge = some (x, o) →
      ∃ x' o', buildCreation k b' user challenge = some (x', o') ∧
        SameView x (.ref o) x' (.ref o') := by
  obtain ⟨h1, h2⟩ := derived_agree hw hb hv hs hp
  have hw' := (setAttr_frame hw hb hv hs).1
  have hf := (program_frame hw' hp).2.2
  exact build_creation_agree hw' h2 hu hc (fun a hr => hf a (reach_lt hw' hr hu) (hau a hr))
    fun a hr => hf a (reach_lt hw' hr hc) (hac a hr)

/-- C55: and the same request options. -/
theorem C55_derived_builds_request (h h' k : Heap) (hw : WellFormed h) (b : Addr) (hb : b < h.length)
    (i : Nat) (v : Val) (hv : ValidVal h v) (b' : Addr) (hs : setAttr h b i v = some (h', b'))
    (hp : Program (OldOrLater h h' v) h' k) (challenge allow : Val) (hc : ValidVal h' challenge)
    (hu : ValidVal h' allow) (hac : ∀ a, Reach h' challenge a → ¬ OldOrLater h h' v a)
    (hau : ∀ a, Reach h' allow a → ¬ OldOrLater h h' v a) :
    (buildRequest h' b' challenge allow = none ↔ buildRequest k b' challenge allow = none) ∧
    ∀ x o, buildRequest h' b' challenge allow = some (x, o) →
      ∃ x' o', buildRequest k b' challenge allow = some (x', o') ∧
        SameView x (.ref o) x' (.ref o') := by
  obtain ⟨h1, h2⟩ := derived_agree hw hb hv hs hp
  have hw' := (setAttr_frame hw hb hv hs).1
  have hf := (program_frame hw' hp).2.2
  exact build_request_agree hw' h2 hc hu (fun a hr => hf a (reach_lt hw' hr hc) (hac a hr))
    fun a hr => hf a (reach_lt hw' hr hu) (hau a hr)

/-- C55: a program that changes only what the setter call and later expressions made does
not affect anything that existed before the call. -/
theorem C55_source_forever (h h' k : Heap) (hw : WellFormed h) (b : Addr) (hb : b < h.length) (i : Nat)
    (v : Val) (hv : ValidVal h v) (b' : Addr) (hs : setAttr h b i v = some (h', b'))
    (hp : Program (h.length ≤ ·) h' k) (w : Val) (hwv : ValidVal h w) : SameView h w k w := by
  intro n
  obtain ⟨hw', hl, hf⟩ := setAttr_frame hw hb hv hs
  refine (view_frame (fun a hr => ?_) n).symm
  have ha := reach_lt hw hr hwv
  rw [(program_frame hw' hp).2.2 a (Nat.lt_of_lt_of_le ha hl) (Nat.not_le.mpr ha), hf a ha]

/-- `C55_derived_forever` applies when the relying party object is changed twice, with a new
object in between. -/
example (user challenge : PyVal) : SameView Builders.after (.ref 5)
      (mutate (mutate Builders.after 0 ⟨"list", []⟩ ++ [⟨"list", [.ref 0]⟩]) 0 ⟨"list", [.ref 9]⟩)
      (.ref 5) ∧
    ∀ x o, buildCreation Builders.after 5 (.atom user) (.atom challenge) = some (x, o) → ∃ x' o',
      buildCreation (mutate (mutate Builders.after 0 ⟨"list", []⟩ ++ [⟨"list", [.ref 0]⟩]) 0
        ⟨"list", [.ref 9]⟩) 5 (.atom user) (.atom challenge) = some (x', o') ∧
      SameView x (.ref o) x' (.ref o') := by
  have hm : OldOrLater Builders.heap Builders.after (.ref 4) 0 := by
    refine Or.inl ⟨by decide, fun h => ?_⟩
    rcases h with _ | ⟨_, _, d, w, hd, hw, _⟩
    cases hd
    cases hw
  have hp : Program (OldOrLater Builders.heap Builders.after (.ref 4)) Builders.after
      (mutate (mutate Builders.after 0 ⟨"list", []⟩ ++ [⟨"list", [.ref 0]⟩]) 0 ⟨"list", [.ref 9]⟩) :=
    .change _ 0 _ (.alloc _ _ (.change _ 0 _ .refl hm (by simp)) (by simp [mutate, Builders.after]))
      hm (by simp [mutate, Builders.after, Builders.heap])
  have hw := (C42_histories Builders.heap Builders.heap_hist).1
  exact ⟨C55_derived_forever _ _ _ hw 3 (by decide) 6 (.ref 4) (show 4 < 5 by decide) 5
      Builders.set_exclude hp,
    (C55_derived_builds_creation _ _ _ hw 3 (by decide) 6 (.ref 4) (show 4 < 5 by decide) 5
      Builders.set_exclude hp (.atom user) (.atom challenge) trivial trivial (fun _ h => nomatch h) (fun _ h => nomatch h)).2⟩

/-- `C55_source_forever` applies when the copy is changed. -/
example : SameView Builders.heap (.ref 3)
    (mutate (mutate Builders.after 6 ⟨"list", []⟩) 7 ⟨"list", [.ref 6]⟩) (.ref 3) :=
  C55_source_forever Builders.heap Builders.after _ (C42_histories Builders.heap Builders.heap_hist).1 3
    (by decide) 6 (.ref 4) (show 4 < 5 by decide) 5 Builders.set_exclude
    (.change _ 7 _ (.change _ 6 _ .refl (show 5 ≤ 6 by decide) (by simp)) (show 5 ≤ 7 by decide)
      (by simp [mutate, Builders.after, Builders.heap])) (.ref 3) (show 3 < 5 by decide)

end WebAuthn.Props
