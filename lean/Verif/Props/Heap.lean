import Verif.Lemmas.Heap

/-!
# Builders are immutable (C42, C55)
-/

namespace WebAuthn.Props

open WebAuthn WebAuthn.Spec WebAuthn.Heap

/-! ## Setters keep the heap in order -/

/-- A setter call keeps the old objects and leaves no dangling reference. -/
theorem setAttr_frame {h h' : Heap} (hw : WellFormed h) {b : Addr} (hb : b < h.length) {i : Nat}
    {v : Val} (hv : ValidVal h v) {b' : Addr} (hs : setAttr h b i v = some (h', b')) :
    WellFormed h' ∧ h.length ≤ h'.length ∧ ∀ a, a < h.length → h'[a]? = h[a]? := by
  obtain ⟨h1, b1, c1, m, e, hi, hm, hc1, -⟩ :=
    setAttr_facts hw (List.getElem?_eq_getElem hb) i v
  rw [hs] at e
  cases e
  obtain ⟨-, hr1, hr2⟩ := hi.rng b b' hm
  refine ⟨?_, by rw [List.length_set]; exact hi.len, ?_⟩
  · intro c hc w hwc
    cases w with
    | ref x =>
      show x < (h1.set b' _).length
      rw [List.length_set]
      obtain ⟨j, hj⟩ := List.mem_iff_getElem?.mp hc
      by_cases hjb : j = b'
      · subst hjb
        rw [List.getElem?_set_self hr2] at hj
        cases hj
        rcases List.mem_or_eq_of_mem_set hwc with hx | hx
        · exact (fresh_slots hi hr1 hc1 hx).2
        · subst hx
          exact Nat.lt_of_lt_of_le hv hi.len
      · rw [List.getElem?_set_ne (Ne.symm hjb)] at hj
        by_cases hjh : j < h.length
        · have : h[j]? = some c := (hi.old j hjh).symm.trans hj
          exact Nat.lt_of_lt_of_le (hw c (List.mem_of_getElem? this) _ hwc) hi.len
        · exact (fresh_slots hi (Nat.not_lt.mp hjh) hj hwc).2
    | _ => trivial
  · intro a ha
    rw [List.getElem?_set_ne]
    · exact hi.old a ha
    · rintro rfl
      exact absurd ha (Nat.not_lt.mpr hr1)

/-- A history keeps the old objects and leaves no dangling reference. -/
theorem hist_frame {h h' : Heap} (hw : WellFormed h) (hh : Hist h h') :
    WellFormed h' ∧ h.length ≤ h'.length ∧ ∀ a, a < h.length → h'[a]? = h[a]? := by
  induction hh with
  | refl => exact ⟨hw, Nat.le_refl _, fun _ _ => rfl⟩
  | alloc h' c _ hc ih =>
    obtain ⟨h1, h2, h3⟩ := ih
    refine ⟨?_, ?_, ?_⟩
    · intro d hd w hwd
      cases w with
      | ref x =>
        show x < (h' ++ [c]).length
        rw [List.length_append, List.length_singleton]
        rw [List.mem_append, List.mem_singleton] at hd
        rcases hd with hd | rfl
        · exact Nat.lt_succ_of_lt (h1 d hd _ hwd)
        · exact Nat.lt_succ_of_lt (hc x hwd)
      | _ => trivial
    · rw [List.length_append]
      exact Nat.le_trans h2 (Nat.le_add_right _ _)
    · intro a ha
      rw [List.getElem?_append_left (Nat.lt_of_lt_of_le ha h2)]
      exact h3 a ha
  | set h' b i v h'' b' _ hb hv hs ih =>
    obtain ⟨h1, h2, h3⟩ := ih
    have hv' : ValidVal h' v := by
      cases v with
      | ref a => exact hv a rfl
      | _ => trivial
    obtain ⟨k1, k2, k3⟩ := setAttr_frame h1 hb hv' hs
    exact ⟨k1, Nat.le_trans h2 k2,
      fun a ha => (k3 a (Nat.lt_of_lt_of_le ha h2)).trans (h3 a ha)⟩

/-- C42: however objects are created and setters called, everything that existed
before, builders in particular, looks the same afterwards. -/
theorem C42_unchanged (h h' : Heap) (hw : WellFormed h) (hh : Hist h h') (v : Val)
    (hv : ValidVal h v) : SameView h v h' v := by
  intro n
  refine (view_frame (fun a ha => ?_) n).symm
  exact (hist_frame hw hh).2.2 a (reach_lt hw ha hv)

/-! ## The new builder -/

/-- There is an order in which references go down. -/
def Acyclic (h : Heap) : Prop :=
  ∃ rank : Addr → Nat, ∀ a c x, h[a]? = some c → .ref x ∈ c.slots → rank x < rank a

theorem acyclic_reach {h : Heap} {rank : Addr → Nat}
    (hr : ∀ a c x, h[a]? = some c → .ref x ∈ c.slots → rank x < rank a) {v : Val} {x : Addr}
    (h1 : Reach h v x) : ∀ a, v = .ref a → rank x ≤ rank a := by
  induction h1 with
  | here a =>
    rintro _ ⟨⟩
    exact Nat.le_refl _
  | step a x c w hc hwc hx ih =>
    rintro _ ⟨⟩
    cases hx with
    | here => exact Nat.le_of_lt (hr a c x hc hwc)
    | step y _ d u hd hu hx => exact Nat.le_trans (ih y rfl) (Nat.le_of_lt (hr a c y hc hwc))

/-- The copies have the rank of the originals. -/
noncomputable def copyRank (m : Addr → Option Addr) (rank : Addr → Nat) (y : Addr) : Nat :=
  open Classical in if h : ∃ a, m a = some y then rank h.choose else rank y

theorem copyRank_copy {h : Heap} {s : CopySt} (hi : Inv h (fun _ => False) s) {rank : Addr → Nat}
    {a y : Addr} (ha : s.memo a = some y) : copyRank s.memo rank y = rank a := by
  unfold copyRank
  have he : ∃ a, s.memo a = some y := ⟨a, ha⟩
  rw [dif_pos he, hi.inj _ _ _ he.choose_spec ha]

theorem copyRank_old {h : Heap} {s : CopySt} (hi : Inv h (fun _ => False) s) {rank : Addr → Nat}
    {y : Addr} (hy : y < h.length) : copyRank s.memo rank y = rank y := by
  unfold copyRank
  rw [dif_neg]
  rintro ⟨a, ha⟩
  exact absurd hy (Nat.not_lt.mpr (hi.rng a y ha).2.1)

theorem copyRank_down {h : Heap} {s : CopySt} (hw : WellFormed h)
    (hi : Inv h (fun _ => False) s) {rank : Addr → Nat}
    (hr : ∀ a c x, h[a]? = some c → .ref x ∈ c.slots → rank x < rank a) (a : Addr) (c : Cell)
    (x : Addr) (hc : s.heap[a]? = some c) (hx : .ref x ∈ c.slots) :
    copyRank s.memo rank x < copyRank s.memo rank a := by
  by_cases ha : a < h.length
  · have hc' : h[a]? = some c := (hi.old a ha).symm.trans hc
    have hxl : x < h.length := hw c (List.mem_of_getElem? hc') _ hx
    rw [copyRank_old hi ha, copyRank_old hi hxl]
    exact hr a c x hc' hx
  · obtain ⟨o, ho⟩ := hi.sur a (Nat.not_lt.mp ha) (List.getElem?_eq_some_iff.mp hc).1
    obtain ⟨d, d', h1, h2, -, h4⟩ := hi.done o a ho not_false
    rw [hc] at h2
    cases h2
    obtain ⟨w, hwd, hrel⟩ := forall₂_right h4 hx
    cases w with
    | ref z =>
      obtain ⟨_, e, hz⟩ := hrel
      cases e
      rw [copyRank_copy hi ho, copyRank_copy hi hz]
      exact hr o d z h1 hwd
    | _ => cases hrel

/-- An upper bound on the ranks of existing objects. -/
theorem rank_bound (rank : Addr → Nat) (N : Nat) : ∃ M, ∀ y, y < N → rank y < M := by
  induction N with
  | zero => exact ⟨0, fun y hy => absurd hy (Nat.not_lt_zero y)⟩
  | succ N ih =>
    obtain ⟨M, hM⟩ := ih
    refine ⟨max M (rank N + 1), fun y hy => ?_⟩
    rcases Nat.lt_succ_iff_lt_or_eq.mp hy with h | rfl
    · exact Nat.lt_of_lt_of_le (hM y h) (Nat.le_max_left _ _)
    · exact Nat.lt_of_lt_of_le (Nat.lt_succ_self _) (Nat.le_max_right _ _)

/-- An object that no other refers to can be made the highest. -/
theorem acyclic_top {h : Heap} (hw : WellFormed h) {t : Addr} {rank : Addr → Nat}
    (hd : ∀ a c x, a ≠ t → h[a]? = some c → .ref x ∈ c.slots → x ≠ t ∧ rank x < rank a)
    (ht : ∀ c, h[t]? = some c → .ref t ∉ c.slots) : Acyclic h := by
  obtain ⟨M, hM⟩ := rank_bound rank h.length
  refine ⟨fun y => if y = t then M else rank y, fun a c x hc hx => ?_⟩
  simp only
  by_cases ha : a = t
  · subst ha
    have hxa : x ≠ a := by
      rintro rfl
      exact ht c hc hx
    rw [if_neg hxa, if_pos rfl]
    exact hM x (hw c (List.mem_of_getElem? hc) _ hx)
  · obtain ⟨h1, h2⟩ := hd a c x ha hc hx
    rw [if_neg h1, if_neg ha]
    exact h2

theorem setAttr_acyclic {h h' : Heap} (hw : WellFormed h) (ha : Acyclic h) {b : Addr}
    (hb : b < h.length) {i : Nat} {v : Val} (hv : ValidVal h v) {b' : Addr}
    (hs : setAttr h b i v = some (h', b')) : Acyclic h' := by
  have hw' := (setAttr_frame hw hb hv hs).1
  obtain ⟨rank, hr⟩ := ha
  obtain ⟨h1, b1, c1, m, e, hi, hm, hc1, -, -, hin⟩ :=
    setAttr_facts hw (List.getElem?_eq_getElem hb) i v
  rw [hs] at e
  cases e
  obtain ⟨-, hr1, hr2⟩ := hi.rng b b' hm
  have hd := copyRank_down hw hi hr
  refine acyclic_top hw' (t := b') (rank := copyRank m rank) ?_ ?_
  · intro a c x hab hc hx
    rw [List.getElem?_set_ne (Ne.symm hab)] at hc
    refine ⟨?_, hd a c x hc hx⟩
    rintro rfl
    by_cases hah : a < h.length
    · have : h[a]? = some c := (hi.old a hah).symm.trans hc
      exact absurd (hw c (List.mem_of_getElem? this) _ hx) (Nat.not_lt.mpr hr1)
    · obtain ⟨o, ho⟩ := hi.sur a (Nat.not_lt.mp hah) (List.getElem?_eq_some_iff.mp hc).1
      have h1 := hd a c x hc hx
      have h2 := acyclic_reach hr (hin o a ho) b rfl
      rw [copyRank_copy hi ho, copyRank_copy hi hm] at h1
      exact absurd h1 (Nat.not_lt.mpr h2)
  · intro c hc hx
    rw [List.getElem?_set_self hr2] at hc
    cases hc
    rcases List.mem_or_eq_of_mem_set hx with hx | hx
    · exact absurd (hd b' c1 b' hc1 hx) (Nat.lt_irrefl _)
    · rw [← hx] at hv
      exact absurd hv (Nat.not_lt.mpr hr1)

/-- References never go round in a circle when objects are only created and setters
called. -/
theorem hist_acyclic {h h' : Heap} (hw : WellFormed h) (ha : Acyclic h) (hh : Hist h h') :
    Acyclic h' := by
  induction hh with
  | refl => exact ha
  | alloc h' c hh hc ih =>
    have hw1 := (hist_frame hw hh).1
    obtain ⟨rank, hr⟩ := ih
    refine acyclic_top (hist_frame hw (hh.alloc h' c hc)).1 (t := h'.length) (rank := rank) ?_ ?_
    · intro a d x hat hd hx
      have hal : a < h'.length := by
        have := (List.getElem?_eq_some_iff.mp hd).1
        rw [List.length_append, List.length_singleton] at this
        exact Nat.lt_of_le_of_ne (Nat.lt_succ_iff.mp this) hat
      rw [List.getElem?_append_left hal] at hd
      exact ⟨Nat.ne_of_lt (hw1 d (List.mem_of_getElem? hd) _ hx), hr a d x hd hx⟩
    · intro d hd hx
      rw [List.getElem?_append_right (Nat.le_refl _), Nat.sub_self] at hd
      cases hd
      exact absurd (hc _ hx) (Nat.lt_irrefl _)
  | set h' b i v h'' b' hh hb hv hs ih =>
    have hv' : ValidVal h' v := by
      cases v with
      | ref a => exact hv a rfl
      | _ => trivial
    exact setAttr_acyclic (hist_frame hw hh).1 ih hb hv' hs

theorem forall₂_get {α β : Type} {R : α → β → Prop} {l : List α} {l' : List β}
    (h : List.Forall₂ R l l') {j : Nat} {x : α} {y : β} (hx : l[j]? = some x)
    (hy : l'[j]? = some y) : R x y := by
  induction h generalizing j with
  | nil => cases hx
  | cons hab _ ih =>
    cases j with
    | zero =>
      cases hx
      cases hy
      exact hab
    | succ j => exact ih hx hy

theorem forall₂_length {α β : Type} {R : α → β → Prop} {l : List α} {l' : List β}
    (h : List.Forall₂ R l l') : l.length = l'.length := by
  induction h with
  | nil => rfl
  | cons _ _ ih => rw [List.length_cons, List.length_cons, ih]

/-- C42: a setter always returns a new builder of the same class; the attribute that
is set refers to the given value, and all other attributes look as in the source. -/
theorem C42_derived (h : Heap) (hw : WellFormed h) (ha : Acyclic h) (b : Addr) (c : Cell)
    (hb : h[b]? = some c) (i : Nat) (hi : i < c.slots.length) (v : Val) (hv : ValidVal h v) :
    ∃ h' b' c', setAttr h b i v = some (h', b') ∧ h.length ≤ b' ∧ h'[b']? = some c' ∧
      c'.tag = c.tag ∧ c'.slots.length = c.slots.length ∧ c'.slots[i]? = some v ∧
      SameView h v h' v ∧
      ∀ j, j ≠ i → ∀ w w', c.slots[j]? = some w → c'.slots[j]? = some w' → SameView h w h' w' := by
  have hlt : b < h.length := (List.getElem?_eq_some_iff.mp hb).1
  obtain ⟨h1, b', c1, m, e, inv, hm, hc1, htag, hrel, hin⟩ := setAttr_facts hw hb i v
  obtain ⟨-, hr1, hr2⟩ := inv.rng b b' hm
  obtain ⟨rank, hr⟩ := ha
  have hlen : c.slots.length = c1.slots.length := forall₂_length hrel
  refine ⟨_, b', ⟨c1.tag, c1.slots.set i v⟩, e, hr1, List.getElem?_set_self hr2, htag, ?_, ?_, ?_, ?_⟩
  · rw [List.length_set, hlen]
  · exact List.getElem?_set_self (hlen ▸ hi)
  · exact fun n => (view_frame
      (fun a ha => (setAttr_frame hw hlt hv e).2.2 a (reach_lt hw ha hv)) n).symm
  · intro j hj w w' hw1 hw2
    simp only at hw2
    rw [List.getElem?_set_ne (Ne.symm hj)] at hw2
    have hww := forall₂_get hrel hw1 hw2
    intro n
    rw [view_rel inv n w w' hww]
    refine (view_frame (fun x hx => ?_) n).symm
    rw [List.getElem?_set_ne]
    rintro rfl
    cases w with
    | ref z =>
      obtain ⟨y, rfl, hz⟩ := hww
      have h3 := acyclic_reach (copyRank_down hw inv hr) hx y rfl
      rw [copyRank_copy inv hm, copyRank_copy inv hz] at h3
      exact absurd (hr b c z hb (List.mem_of_getElem? hw1)) (Nat.not_lt.mpr h3)
    | _ =>
      cases hww
      cases hx

/-- C42, for programs: from the empty heap every history leads to a heap to which
`C42_unchanged` and `C42_derived` apply. -/
theorem C42_histories (h : Heap) (hh : Hist [] h) : WellFormed h ∧ Acyclic h :=
  ⟨(hist_frame (by intro c hc; cases hc) hh).1,
    hist_acyclic (by intro c hc; cases hc) ⟨fun _ => 0, fun a c x h => by simp at h⟩ hh⟩

/-- Adding objects does not change how existing values look. -/
theorem view_append {h : Heap} (hw : WellFormed h) (cs : Heap) (n : Nat) {v : Val}
    (hv : ValidVal h v) : view (h ++ cs) n v = view h n v :=
  view_frame (fun _ ha => List.getElem?_append_left (reach_lt hw ha hv)) n

/-- Options that refer to values which look the same look the same. -/
theorem view_options {h h' : Heap} {t t' : String} {inner : List Val}
    {pre : List Val} (hi : ∀ v ∈ pre ++ inner, ∀ n cs cs', view (h ++ cs) n v = view (h' ++ cs') n v) :
    SameView (h ++ [⟨t, inner⟩, ⟨t', pre ++ [.ref h.length]⟩]) (.ref (h.length + 1))
      (h' ++ [⟨t, inner⟩, ⟨t', pre ++ [.ref h'.length]⟩]) (.ref (h'.length + 1)) := by
  have get0 : ∀ k : Heap, ∀ x y : Cell, (k ++ [x, y])[k.length]? = some x := fun k x y => by
    rw [List.getElem?_append_right (Nat.le_refl _), Nat.sub_self]; rfl
  have get1 : ∀ k : Heap, ∀ x y : Cell, (k ++ [x, y])[k.length + 1]? = some y := fun k x y => by
    rw [List.getElem?_append_right (Nat.le_add_right _ _), Nat.add_sub_cancel_left]; rfl
  have hslots : ∀ n cs cs', ∀ l : List Val, (∀ v ∈ l, v ∈ pre ++ inner) →
      l.map (view (h ++ cs) n) = l.map (view (h' ++ cs') n) := fun n cs cs' l hl =>
    List.map_congr_left fun v hv => hi v (hl v hv) n cs cs'
  intro n
  cases n with
  | zero => simp only [view]
  | succ n =>
    rw [view_ref (get1 h _ _), view_ref (get1 h' _ _)]
    simp only [List.map_append, List.map_cons, List.map_nil]
    rw [hslots n _ _ pre fun v hv => List.mem_append.mpr (Or.inl hv)]
    congr 3
    cases n with
    | zero => simp only [view]
    | succ n =>
      rw [view_ref (get0 h _ _), view_ref (get0 h' _ _)]
      simp only
      rw [hslots n _ _ inner fun v hv => List.mem_append.mpr (Or.inr hv)]

theorem hist_view {h h' : Heap} (hw : WellFormed h) (hh : Hist h h') {v : Val} (hv : ValidVal h v)
    (n : Nat) (cs cs' : Heap) : view (h ++ cs) n v = view (h' ++ cs') n v := by
  obtain ⟨hw', hl, -⟩ := hist_frame hw hh
  have hv' : ValidVal h' v := by
    cases v with
    | ref a => exact Nat.lt_of_lt_of_le hv hl
    | _ => trivial
  rw [view_append hw _ n hv, view_append hw' _ n hv', C42_unchanged h h' hw hh v hv n]

/-- C42: after any history a builder builds options that look as the ones it would
have built before, or fails as it would have failed before. -/
theorem C42_build_creation (h h' : Heap) (hw : WellFormed h) (hh : Hist h h') (b : Addr)
    (hb : b < h.length) (user challenge : Val) (hu : ValidVal h user) (hc : ValidVal h challenge) :
    (buildCreation h b user challenge = none ↔ buildCreation h' b user challenge = none) ∧
    ∀ k o, buildCreation h b user challenge = some (k, o) →
      ∃ k' o', buildCreation h' b user challenge = some (k', o') ∧
        SameView k (.ref o) k' (.ref o') := by
  have hcell := (hist_frame hw hh).2.2 b hb
  unfold buildCreation
  rw [hcell]
  have hval : ∀ c, h[b]? = some c → ∀ v ∈ c.slots, ValidVal h v := fun c hc v hv =>
    hw c (List.mem_of_getElem? hc) v hv
  cases hcb : h[b]? with
  | none => simp
  | some c =>
    obtain ⟨t, slots⟩ := c
    have hs := hval _ hcb
    simp only at hs
    split
    · rename_i e
      cases e
      split_ifs with hif
      · simp
      · simp only [Option.some.injEq, Prod.mk.injEq, true_and]
        rintro k o ⟨rfl, rfl⟩
        refine ⟨_, _, ⟨rfl, rfl⟩, view_options (pre := []) ?_⟩
        intro v hv n cs cs'
        refine hist_view hw hh ?_ n cs cs'
        simp only [List.nil_append, List.mem_cons, List.not_mem_nil, or_false] at hv hs
        rcases hv with rfl | rfl | rfl | rfl | rfl | rfl | rfl | rfl | rfl <;>
          first | exact hu | exact hc | exact hs _ (by simp)
    · simp

/-- C42: the same for request builders. -/
theorem C42_build_request (h h' : Heap) (hw : WellFormed h) (hh : Hist h h') (b : Addr)
    (hb : b < h.length) (challenge allow : Val) (hu : ValidVal h challenge) (hc : ValidVal h allow) :
    (buildRequest h b challenge allow = none ↔ buildRequest h' b challenge allow = none) ∧
    ∀ k o, buildRequest h b challenge allow = some (k, o) →
      ∃ k' o', buildRequest h' b challenge allow = some (k', o') ∧
        SameView k (.ref o) k' (.ref o') := by
  have hcell := (hist_frame hw hh).2.2 b hb
  unfold buildRequest
  rw [hcell]
  have hval : ∀ c, h[b]? = some c → ∀ v ∈ c.slots, ValidVal h v := fun c hc v hv =>
    hw c (List.mem_of_getElem? hc) v hv
  cases hcb : h[b]? with
  | none => simp
  | some c =>
    obtain ⟨t, slots⟩ := c
    have hs := hval _ hcb
    simp only at hs
    split
    · rename_i e
      cases e
      split_ifs with hif
      · simp
      · simp only [Option.some.injEq, Prod.mk.injEq, true_and]
        rintro k o ⟨rfl, rfl⟩
        refine ⟨_, _, ⟨rfl, rfl⟩, view_options (pre := [_]) ?_⟩
        intro v hv n cs cs'
        refine hist_view hw hh ?_ n cs cs'
        simp only [List.singleton_append, List.mem_cons, List.not_mem_nil, or_false] at hv hs
        rcases hv with rfl | rfl | rfl | rfl | rfl | rfl | rfl <;>
          first | exact hu | exact hc | exact hs _ (by simp)
    · simp

/-! ## Isolation -/

/-- The new builder reaches new objects and what the value set reaches. -/
theorem setAttr_reach {h h' : Heap} (hw : WellFormed h) {b : Addr} (hb : b < h.length) {i : Nat}
    {v : Val} {b' : Addr} (hs : setAttr h b i v = some (h', b')) {x : Addr}
    (hx : Reach h' (.ref b') x) : h.length ≤ x ∨ Reach h' v x := by
  obtain ⟨h1, b1, c1, m, e, inv, hm, hc1, -⟩ :=
    setAttr_facts hw (List.getElem?_eq_getElem hb) i v
  rw [hs] at e
  cases e
  obtain ⟨-, hr1, hr2⟩ := inv.rng b b' hm
  have key : ∀ w x, Reach (h1.set b' ⟨c1.tag, c1.slots.set i v⟩) w x →
      (∀ y, w = .ref y → h.length ≤ y) →
      h.length ≤ x ∨ Reach (h1.set b' ⟨c1.tag, c1.slots.set i v⟩) v x := by
    intro w x hx
    induction hx with
    | here a => exact fun h => Or.inl (h a rfl)
    | step a x c w hc hwc hx ih =>
      intro hy
      have hya := hy a rfl
      by_cases hab : a = b'
      · subst hab
        rw [List.getElem?_set_self hr2] at hc
        cases hc
        rcases List.mem_or_eq_of_mem_set hwc with hmem | rfl
        · refine ih fun y e => ?_
          subst e
          exact (fresh_slots inv hya hc1 hmem).1
        · exact Or.inr hx
      · rw [List.getElem?_set_ne (Ne.symm hab)] at hc
        refine ih fun y e => ?_
        subst e
        exact (fresh_slots inv hya hc hwc).1
  exact key _ x hx fun y e => by cases e; exact hr1

/-- C55: a program that later changes an object that existed before the call, the
source builder and its parts included, does not affect the new builder, unless the
object belongs to the value that was set. -/
theorem C55_derived_isolated (h h' : Heap) (hw : WellFormed h) (b : Addr) (hb : b < h.length)
    (i : Nat) (v : Val) (b' : Addr) (hs : setAttr h b i v = some (h', b')) (a : Addr)
    (ha : a < h.length) (hna : ¬ Reach h' v a) (c : Cell) :
    SameView h' (.ref b') (mutate h' a c) (.ref b') := by
  intro n
  refine (view_frame (fun x hx => ?_) n).symm
  rw [mutate, List.getElem?_set_ne]
  rintro rfl
  rcases setAttr_reach hw hb hs hx with h1 | h1
  · exact absurd ha (Nat.not_lt.mpr h1)
  · exact hna h1

/-- C55: a program that changes the objects the call has made, the new builder and
its parts, does not affect anything that existed before. -/
theorem C55_source_isolated (h h' : Heap) (hw : WellFormed h) (b : Addr) (hb : b < h.length)
    (i : Nat) (v : Val) (hv : ValidVal h v) (b' : Addr) (hs : setAttr h b i v = some (h', b'))
    (a : Addr) (ha : h.length ≤ a) (c : Cell) (w : Val) (hwv : ValidVal h w) :
    SameView h w (mutate h' a c) w := by
  intro n
  refine (view_frame (fun x hx => ?_) n).symm
  have hxl := reach_lt hw hx hwv
  rw [mutate, List.getElem?_set_ne]
  · exact (setAttr_frame hw hb hv hs).2.2 x hxl
  · rintro rfl
    exact absurd hxl (Nat.not_lt.mpr ha)

/-! ## What the options built are made of -/

/-- C42: `build` fails exactly when one of the three required attributes is `None`.
Otherwise it makes a new options object; each attribute of the options is the
builder's attribute of the same name, or the argument of that name; no existing
object is touched. -/
theorem C42_creation_attributes (h : Heap) (b : Addr)
    (hb : IsA h "CredentialCreationOptionsBuilder" b) (user challenge : Val) :
    (buildCreation h b user challenge = none ↔
      ∃ name ∈ ["rp", "pub_key_cred_params", "attestation"], attributeOf h b name = some .none) ∧
    ∀ k o, buildCreation h b user challenge = some (k, o) →
      (∃ new, k = h ++ new) ∧ IsA k "CredentialCreationOptions" o ∧
      ∃ p, attributeOf k o "public_key" = some (.ref p) ∧
        IsA k "PublicKeyCredentialCreationOptions" p ∧ h.length ≤ p ∧
        attributeOf k p "user" = some user ∧ attributeOf k p "challenge" = some challenge ∧
        ∀ name ∈ attributesOf "CredentialCreationOptionsBuilder",
          attributeOf k p name = attributeOf h b name := by
  obtain ⟨⟨t, slots⟩, hc, ht, hl⟩ := hb
  simp only at ht hl
  subst ht
  match slots, hl with
  | [rp, params, timeout, selection, extensions, attestation, exclude], _ =>
    have e : buildCreation h b user challenge =
        if rp.isNone || params.isNone || attestation.isNone then none
        else some (h ++ [⟨"PublicKeyCredentialCreationOptions", [rp, user, challenge, params,
          timeout, exclude, selection, attestation, extensions]⟩,
          ⟨"CredentialCreationOptions", [.ref h.length]⟩], h.length + 1) := by
      unfold buildCreation; rw [hc]
    have isN : ∀ v : Val, v.isNone = true ↔ v = .none := by
      intro v; cases v <;> simp [Val.isNone]
    constructor
    · rw [e]
      simp only [attributeOf, hc, attributesOf, List.zip, List.zipWith, List.lookup]
      by_cases h1 : rp = .none <;> by_cases h2 : params = .none <;>
        by_cases h3 : attestation = .none <;> simp [isN, h1, h2, h3]
    · rw [e]
      intro k o hk
      split_ifs at hk
      simp only [Option.some.injEq, Prod.mk.injEq] at hk
      obtain ⟨rfl, rfl⟩ := hk
      refine ⟨⟨_, rfl⟩, ⟨_, by simp; rfl, rfl, rfl⟩, h.length, ?_, ⟨_, by simp; rfl, rfl, rfl⟩,
        Nat.le_refl _, ?_, ?_, ?_⟩ <;>
        simp [attributeOf, hc, attributesOf, List.lookup]

/-- C42: the same for request builders, whose required attribute is the mediation. -/
theorem C42_request_attributes (h : Heap) (b : Addr)
    (hb : IsA h "CredentialRequestOptionsBuilder" b) (challenge allow : Val) :
    (buildRequest h b challenge allow = none ↔ attributeOf h b "mediation" = some .none) ∧
    ∀ k o, buildRequest h b challenge allow = some (k, o) →
      (∃ new, k = h ++ new) ∧ IsA k "CredentialRequestOptions" o ∧
      attributeOf k o "mediation" = attributeOf h b "mediation" ∧
      ∃ p, attributeOf k o "public_key" = some (.ref p) ∧
        IsA k "PublicKeyCredentialRequestOptions" p ∧ h.length ≤ p ∧
        attributeOf k p "challenge" = some challenge ∧
        attributeOf k p "allow_credentials" = some allow ∧
        ∀ name ∈ ["timeout", "rp_id", "extensions", "user_verification"],
          attributeOf k p name = attributeOf h b name := by
  obtain ⟨⟨t, slots⟩, hc, ht, hl⟩ := hb
  simp only at ht hl
  subst ht
  match slots, hl with
  | [mediation, timeout, rpId, extensions, verification], _ =>
    have e : buildRequest h b challenge allow =
        if mediation.isNone then none
        else some (h ++ [⟨"PublicKeyCredentialRequestOptions", [challenge, timeout, rpId, allow,
          verification, extensions]⟩, ⟨"CredentialRequestOptions", [mediation, .ref h.length]⟩],
          h.length + 1) := by
      unfold buildRequest; rw [hc]
    have isN : ∀ v : Val, v.isNone = true ↔ v = .none := by
      intro v; cases v <;> simp [Val.isNone]
    constructor
    · rw [e]
      simp [attributeOf, hc, attributesOf, isN]
    · rw [e]
      intro k o hk
      split_ifs at hk
      simp only [Option.some.injEq, Prod.mk.injEq] at hk
      obtain ⟨rfl, rfl⟩ := hk
      refine ⟨⟨_, rfl⟩, ⟨_, by simp; rfl, rfl, rfl⟩, ?_, h.length, ?_,
        ⟨_, by simp; rfl, rfl, rfl⟩, Nat.le_refl _, ?_, ?_, ?_⟩ <;>
        simp [attributeOf, hc, attributesOf, List.lookup]

/-! ## A concrete case -/

namespace Builders

/-- A relying party, a list with one parameter object, and a builder with both. -/
def heap : Heap := [
  ⟨"PublicKeyCredentialRpEntity", [.atom (.str "localhost"), .none, .atom (.str "localhost")]⟩,
  ⟨"PublicKeyCredentialParameters", [.member "PublicKeyCredentialType" "PUBLIC_KEY",
    .member "COSEAlgorithmIdentifier.Value" "ES256"]⟩,
  ⟨"list", [.ref 1]⟩,
  ⟨"CredentialCreationOptionsBuilder", [.ref 0, .ref 2, .none, .none, .none,
    .member "AttestationConveyancePreference" "NONE", .none]⟩,
  ⟨"list", []⟩]

theorem heap_hist : Hist [] heap := by
  have h0 : Hist [] [] := .refl
  have h1 := h0.alloc [] heap[0] (by simp [heap])
  have h2 := h1.alloc _ heap[1] (by simp [heap])
  have h3 := h2.alloc _ heap[2] (by simp [heap])
  have h4 := h3.alloc _ heap[3] (by simp [heap])
  have h5 := h4.alloc _ heap[4] (by simp [heap])
  exact h5

/-- `builder.exclude_credentials([])`. -/
def after : Heap := heap ++ [
  ⟨"CredentialCreationOptionsBuilder", [.ref 6, .ref 7, .none, .none, .none,
    .member "AttestationConveyancePreference" "NONE", .ref 4]⟩,
  ⟨"PublicKeyCredentialRpEntity", [.atom (.str "localhost"), .none, .atom (.str "localhost")]⟩,
  ⟨"list", [.ref 8]⟩,
  ⟨"PublicKeyCredentialParameters", [.member "PublicKeyCredentialType" "PUBLIC_KEY",
    .member "COSEAlgorithmIdentifier.Value" "ES256"]⟩]

theorem set_exclude : setAttr heap 3 6 (.ref 4) = some (after, 5) := rfl

/-- `C42_derived` applies to this call. -/
example : ∃ h' b' c', setAttr heap 3 6 (.ref 4) = some (h', b') ∧ heap.length ≤ b' ∧
    h'[b']? = some c' ∧ c'.tag = "CredentialCreationOptionsBuilder" ∧ c'.slots[6]? = some (.ref 4) := by
  obtain ⟨hw, ha⟩ := C42_histories heap heap_hist
  obtain ⟨h', b', c', h1, h2, h3, h4, -, h5, -⟩ :=
    C42_derived heap hw ha 3 _ rfl 6 (by decide) (.ref 4) (show 4 < 5 by decide)
  exact ⟨h', b', c', h1, h2, h3, h4, h5⟩

/-- `C42_creation_attributes` applies to the builder of the example: it builds, and
the options refer to its relying party object. -/
example (user challenge : Val) : ∃ k o p, buildCreation heap 3 user challenge = some (k, o) ∧
    attributeOf k o "public_key" = some (.ref p) ∧ attributeOf k p "rp" = some (.ref 0) := by
  obtain ⟨hn, hs⟩ := C42_creation_attributes heap 3 ⟨_, rfl, rfl, rfl⟩ user challenge
  cases hb : buildCreation heap 3 user challenge with
  | none =>
    obtain ⟨name, hm, hv⟩ := hn.mp hb
    simp only [List.mem_cons, List.not_mem_nil, or_false] at hm
    rcases hm with rfl | rfl | rfl <;> cases hv
  | some r =>
    obtain ⟨k, o⟩ := r
    obtain ⟨-, -, p, h1, -, -, -, -, h2⟩ := hs k o hb
    exact ⟨k, o, p, rfl, h1, h2 "rp" (by decide)⟩

/-- A request builder without a mediation does not build. -/
example (challenge allow : Val) : buildRequest [⟨"CredentialRequestOptionsBuilder",
    [.none, .none, .atom (.str "localhost"), .none, .none]⟩] 0 challenge allow = none :=
  (C42_request_attributes _ 0 ⟨_, rfl, rfl, rfl⟩ challenge allow).1.mpr rfl

/-- `C55_derived_isolated` applies to the relying party object. -/
example (c : Cell) : SameView after (.ref 5) (mutate after 0 c) (.ref 5) := by
  refine C55_derived_isolated heap after (C42_histories heap heap_hist).1 3 (by decide) 6 (.ref 4) 5
    set_exclude 0 (by decide) ?_ c
  intro h
  rcases h with _ | ⟨_, _, d, w, hd, hw, _⟩
  cases hd
  cases hw

/-- What the builder of the example built before a setter call, it builds after it. -/
example : ∀ k o, buildCreation heap 3 .none .none = some (k, o) → ∃ k' o',
    buildCreation after 3 .none .none = some (k', o') ∧ SameView k (.ref o) k' (.ref o') :=
  (C42_build_creation heap after (C42_histories heap heap_hist).1
    (.set heap 3 6 (.ref 4) after 5 .refl (by decide) (by rintro a ⟨⟩; decide) set_exclude) 3 (by decide) .none .none trivial trivial).2

/-- A change to the copy of the relying party object is not seen by the builder. -/
example (c : Cell) : SameView heap (.ref 3) (mutate after 6 c) (.ref 3) :=
  C55_source_isolated heap after (C42_histories heap heap_hist).1 3 (by decide) 6 (.ref 4)
    (show 4 < 5 by decide) 5 set_exclude 6 (by decide) c (.ref 3) (show 3 < 5 by decide)

/-- The list that was passed to the setter is shared: appending to it afterwards
changes what the builder builds. -/
theorem shared : ¬ SameView after (.ref 5) (mutate after 4 ⟨"list", [.ref 0]⟩) (.ref 5) := by
  intro h
  have := h 3
  simp [view, after, heap, mutate] at this

end Builders

/-- C55 without the exception for the value that was set. -/
def FullyIsolated : Prop :=
  ∀ (h h' : Heap), WellFormed h → ∀ (b : Addr), b < h.length → ∀ (i : Nat) (v : Val) (b' : Addr),
    ValidVal h v → setAttr h b i v = some (h', b') → ∀ (a : Addr), a < h.length → ∀ c : Cell,
    SameView h' (.ref b') (mutate h' a c) (.ref b')

/-- C55: the exception is needed, the setters store a reference to what they are
given. -/
theorem C55_exception_needed : ¬ FullyIsolated := fun h =>
  Builders.shared (h _ _ (C42_histories _ Builders.heap_hist).1 3 (by decide) 6 (.ref 4) 5
    (show 4 < 5 by decide) Builders.set_exclude 4 (by decide) _)

end WebAuthn.Props
