import Verif.Lemmas.Base64Text
import Verif.Lemmas.Py
import Verif.Spec.Json

/-!
# Lemmas about `jsonify`
-/

namespace WebAuthn

open Spec

/-- Replace the value of a name in place, or append it. -/
def assocPut {β : Type} : List (String × β) → String → β → List (String × β)
  | [], n, x => [(n, x)]
  | (m, y) :: w, n, x => if m = n then (m, x) :: w else (m, y) :: assocPut w n x

theorem assocPut_map {β γ : Type} (f : β → γ) (w : List (String × β)) (n : String) (x : β) :
    (assocPut w n x).map (fun m => (m.1, f m.2)) =
      assocPut (w.map fun m => (m.1, f m.2)) n (f x) := by
  induction w with
  | nil => rfl
  | cons p w ih =>
    obtain ⟨m, y⟩ := p
    simp only [assocPut, List.map_cons]
    split_ifs
    · rfl
    · rw [List.map_cons, ih]

theorem put_map (w : List (String × PyVal)) (n : String) (j : PyVal) :
    Dict.put (w.map fun m => (.str m.1, m.2)) n j =
      (assocPut w n j).map fun m => (.str m.1, m.2) := by
  induction w with
  | nil => rfl
  | cons p w ih =>
    obtain ⟨m, y⟩ := p
    simp only [assocPut, List.map_cons, Dict.put, PyVal.isKey, beq_iff_eq]
    split_ifs
    · rfl
    · rw [List.map_cons, ih]

theorem assocPut_keys {β : Type} (w : List (String × β)) (n : String) (x : β) (m : String) :
    m ∈ (assocPut w n x).map Prod.fst ↔ m = n ∨ m ∈ w.map Prod.fst := by
  induction w with
  | nil => simp [assocPut]
  | cons p w ih =>
    obtain ⟨k, y⟩ := p
    simp only [assocPut]
    split_ifs with h
    · subst h
      simp
    · rw [List.map_cons, List.mem_cons, ih, List.map_cons, List.mem_cons]
      tauto

theorem assocPut_nodup {β : Type} {w : List (String × β)} (h : (w.map Prod.fst).Nodup) (n : String)
    (x : β) : ((assocPut w n x).map Prod.fst).Nodup := by
  induction w with
  | nil => simp [assocPut]
  | cons p w ih =>
    obtain ⟨k, y⟩ := p
    rw [List.map_cons, List.nodup_cons] at h
    simp only [assocPut]
    split_ifs with hk
    · rw [List.map_cons, List.nodup_cons]
      exact h
    · rw [List.map_cons, List.nodup_cons, assocPut_keys]
      exact ⟨fun hc => hc.elim hk h.1, ih h.2⟩

theorem mem_assocPut {β : Type} {w : List (String × β)} (h : (w.map Prod.fst).Nodup) (n : String)
    (x : β) (m : String) (y : β) :
    (m, y) ∈ assocPut w n x ↔ (m = n ∧ y = x) ∨ (m ≠ n ∧ (m, y) ∈ w) := by
  induction w with
  | nil => simp [assocPut]
  | cons p w ih =>
    obtain ⟨k, z⟩ := p
    rw [List.map_cons, List.nodup_cons] at h
    simp only [assocPut]
    split_ifs with hk
    · subst hk
      rw [List.mem_cons, List.mem_cons, Prod.mk.injEq, Prod.mk.injEq]
      have : (m, y) ∈ w → m ≠ k := by
        rintro hm rfl
        exact h.1 (List.mem_map.mpr ⟨_, hm, rfl⟩)
      tauto
    · rw [List.mem_cons, ih h.2, List.mem_cons, Prod.mk.injEq]
      constructor
      · rintro (⟨rfl, rfl⟩ | h | h)
        · exact Or.inr ⟨hk, Or.inl ⟨rfl, rfl⟩⟩
        · exact Or.inl h
        · exact Or.inr ⟨h.1, Or.inr h.2⟩
      · rintro (h | ⟨h1, ⟨rfl, rfl⟩ | h2⟩)
        · exact Or.inr (Or.inl h)
        · exact Or.inl ⟨rfl, rfl⟩
        · exact Or.inr (Or.inr ⟨h1, h2⟩)

theorem snoc_eq_iff {α : Type} {d pre post : List α} {x y : α} :
    d ++ [x] = pre ++ y :: post ↔
      (post = [] ∧ y = x ∧ pre = d) ∨ ∃ post', post = post' ++ [x] ∧ d = pre ++ y :: post' := by
  rcases List.eq_nil_or_concat post with rfl | ⟨q, z, rfl⟩
  · constructor
    · intro h
      have := List.append_inj' h rfl
      exact Or.inl ⟨rfl, by simpa using this.2.symm, this.1.symm⟩
    · rintro (⟨-, rfl, rfl⟩ | ⟨p, h, -⟩)
      · rfl
      · simp at h
  · rw [List.concat_eq_append, ← List.cons_append, ← List.append_assoc]
    constructor
    · intro h
      have := List.append_inj' h rfl
      refine Or.inr ⟨q, ?_, this.1⟩
      rw [List.singleton_inj.mp this.2]
    · rintro (⟨h, -⟩ | ⟨p, h, rfl⟩)
      · simp at h
      · have := List.append_inj' h rfl
        rw [List.singleton_inj.mp this.2, this.1, List.append_assoc, List.cons_append]

section
variable {name : String → String}

theorem shown_nil : ShownMembers name [] [] := by
  refine ⟨by simp, by simp, fun n v => ?_⟩
  simp

theorem shown_snoc_none {items : List (Obj × Obj)} {w : List (String × Obj)}
    (h : ShownMembers name items w) (k : String) :
    ShownMembers name (items ++ [(.str k, .none)]) w := by
  obtain ⟨h1, h2, h3⟩ := h
  refine ⟨?_, h2, fun n v => ?_⟩
  · intro kv hkv
    rw [List.mem_append, List.mem_singleton] at hkv
    rcases hkv with hkv | rfl
    · exact h1 kv hkv
    · exact ⟨k, rfl⟩
  · rw [h3]
    constructor
    · rintro ⟨pre, s, post, rfl, h4, h5, h6⟩
      refine ⟨pre, s, post ++ [(.str k, .none)], by simp, h4, h5, fun s' v' hm hv => ?_⟩
      rw [List.mem_append, List.mem_singleton] at hm
      rcases hm with hm | hm
      · exact h6 s' v' hm hv
      · cases hm
        exact absurd rfl hv
    · rintro ⟨pre, s, post, h, h4, h5, h6⟩
      rcases snoc_eq_iff.mp h with ⟨rfl, h7, -⟩ | ⟨post', rfl, rfl⟩
      · cases h7
        exact absurd rfl h4
      · exact ⟨pre, s, post', rfl, h4, h5, fun s' v' hm => h6 s' v' (by simp [hm])⟩

theorem shown_snoc {items : List (Obj × Obj)} {w : List (String × Obj)}
    (h : ShownMembers name items w) (k : String) {v : Obj} (hv : v ≠ .none) :
    ShownMembers name (items ++ [(.str k, v)]) (assocPut w (name k) v) := by
  obtain ⟨h1, h2, h3⟩ := h
  refine ⟨?_, assocPut_nodup h2 _ _, fun n x => ?_⟩
  · intro kv hkv
    rw [List.mem_append, List.mem_singleton] at hkv
    rcases hkv with hkv | rfl
    · exact h1 kv hkv
    · exact ⟨k, rfl⟩
  · rw [mem_assocPut h2, h3]
    constructor
    · rintro (⟨rfl, rfl⟩ | ⟨hn, pre, s, post, rfl, h4, h5, h6⟩)
      · exact ⟨items, k, [], rfl, hv, rfl, by simp⟩
      · refine ⟨pre, s, post ++ [(.str k, v)], by simp, h4, h5, fun s' v' hm hv' => ?_⟩
        rw [List.mem_append, List.mem_singleton] at hm
        rcases hm with hm | hm
        · exact h6 s' v' hm hv'
        · cases hm
          exact Ne.symm hn
    · rintro ⟨pre, s, post, h, h4, h5, h6⟩
      rcases snoc_eq_iff.mp h with ⟨rfl, h7, -⟩ | ⟨post', rfl, rfl⟩
      · cases h7
        exact Or.inl ⟨h5.symm, rfl⟩
      · refine Or.inr ⟨Ne.symm (h6 k v (by simp) hv), pre, s, post', rfl, h4, h5, ?_⟩
        exact fun s' v' hm => h6 s' v' (by simp [hm])

end

theorem isNone_iff {v : Obj} : v.isNone = true ↔ v = .none := by
  cases v <;> simp [Obj.isNone]

theorem isStr_iff {v : Obj} : v.isStr = true ↔ ∃ s, v = .str s := by
  cases v <;> simp [Obj.isStr]

theorem allStr_iff {d : List (Obj × Obj)} :
    d.all (fun kv => kv.1.isStr) = true ↔ ∀ kv ∈ d, ∃ s, kv.1 = .str s := by
  simp only [List.all_eq_true, isStr_iff]

mutual

/-- What `jsonify` returns shows the object. -/
theorem jsonify_shows (cc : Bool) :
    ∀ (o : Obj) {v : PyVal}, jsonify cc o = .ok v → Shows (memberName cc) o v
  | .enum o, v, h => by
    rw [jsonify] at h
    exact .enum o v (jsonify_shows cc o h)
  | .inst d, v, h => by
    rw [jsonify] at h
    split_ifs at h with hd
    · simp only [bind_ok_iff, pure_eq_ok, Except.ok.injEq] at h
      obtain ⟨r, h, rfl⟩ := h
      obtain ⟨w, h1, rfl, h2⟩ := jsonifyItems_shows cc d (done := []) (w0 := []) (allStr_iff.mp hd)
        shown_nil (by simp) h
      exact .inst d w h1 h2
    · cases h
  | .dict d, v, h => by
    rw [jsonify] at h
    split_ifs at h with hd
    · simp only [bind_ok_iff, pure_eq_ok, Except.ok.injEq] at h
      obtain ⟨r, h, rfl⟩ := h
      obtain ⟨w, h1, rfl, h2⟩ := jsonifyItems_shows cc d (done := []) (w0 := []) (allStr_iff.mp hd)
        shown_nil (by simp) h
      exact .dict d w h1 h2
    · cases h
  | .bytes b, v, h => by
    rw [jsonify] at h
    cases h
    exact .bytes b _ (b64encode_encodes b)
  | .str s, v, h => by rw [jsonify] at h; cases h; exact .str s
  | .int n, v, h => by rw [jsonify] at h; cases h; exact .int n
  | .float f, v, h => by rw [jsonify] at h; cases h; exact .float f
  | .bool b, v, h => by rw [jsonify] at h; cases h; exact .bool b
  | .list l, v, h => by
    rw [jsonify] at h
    simp only [bind_ok_iff, pure_eq_ok, Except.ok.injEq] at h
    obtain ⟨r, h, rfl⟩ := h
    obtain ⟨ps, rfl, rfl, h1⟩ := jsonifyList_shows cc l h
    exact .list ps h1
  | .tuple l, v, h => by
    rw [jsonify] at h
    simp only [bind_ok_iff, pure_eq_ok, Except.ok.injEq] at h
    obtain ⟨r, h, rfl⟩ := h
    obtain ⟨ps, rfl, rfl, h1⟩ := jsonifyList_shows cc l h
    exact .tuple ps h1
  | .none, v, h => by rw [jsonify] at h; cases h; exact .none
  | .other, v, h => by rw [jsonify] at h; cases h

theorem jsonifyList_shows (cc : Bool) :
    ∀ (l : List Obj) {vs : List PyVal}, jsonifyList cc l = .ok vs →
      ∃ ps : List (Obj × PyVal), l = ps.map Prod.fst ∧ vs = ps.map Prod.snd ∧
        ∀ p ∈ ps, Shows (memberName cc) p.1 p.2
  | [], vs, h => by
    rw [jsonifyList] at h
    cases h
    exact ⟨[], rfl, rfl, by simp⟩
  | x :: xs, vs, h => by
    rw [jsonifyList] at h
    simp only [bind_ok_iff, pure_eq_ok, Except.ok.injEq] at h
    obtain ⟨v, h1, ws, h2, rfl⟩ := h
    have h3 := jsonify_shows cc x h1
    obtain ⟨ps, rfl, rfl, h4⟩ := jsonifyList_shows cc xs h2
    refine ⟨(x, v) :: ps, rfl, rfl, ?_⟩
    intro p hp
    rw [List.mem_cons] at hp
    rcases hp with rfl | hp
    · exact h3
    · exact h4 p hp

theorem jsonifyItems_shows (cc : Bool) :
    ∀ (items : List (Obj × Obj)) {done : List (Obj × Obj)} {w0 : List (String × Obj × PyVal)}
      {d : Dict}, (∀ kv ∈ items, ∃ s, kv.1 = .str s) →
      ShownMembers (memberName cc) done (w0.map fun m => (m.1, m.2.1)) →
      (∀ m ∈ w0, Shows (memberName cc) m.2.1 m.2.2) →
      jsonifyItems cc items (w0.map fun m => (.str m.1, m.2.2)) = .ok d →
      ∃ w : List (String × Obj × PyVal),
        ShownMembers (memberName cc) (done ++ items) (w.map fun m => (m.1, m.2.1)) ∧
        d = (w.map fun m => (.str m.1, m.2.2)) ∧ ∀ m ∈ w, Shows (memberName cc) m.2.1 m.2.2
  | [], done, w0, d, _, h1, h2, h => by
    rw [jsonifyItems] at h
    cases h
    exact ⟨w0, by simpa using h1, rfl, h2⟩
  | (k, v) :: items, done, w0, d, hk, h1, h2, h => by
    obtain ⟨s, hs⟩ := hk (k, v) (by simp)
    simp only at hs
    subst hs
    have hk' : ∀ kv ∈ items, ∃ s, kv.1 = .str s := fun kv hkv => hk kv (by simp [hkv])
    rw [jsonifyItems] at h
    split_ifs at h with hv
    · rw [isNone_iff] at hv
      subst hv
      obtain ⟨w, h3, h4⟩ := jsonifyItems_shows cc items hk' (shown_snoc_none h1 s) h2 h
      exact ⟨w, by simpa using h3, h4⟩
    · rw [isNone_iff] at hv
      simp only [bind_ok_iff] at h
      obtain ⟨j, hj, h⟩ := h
      have h3 := jsonify_shows cc v hj
      have e1 := assocPut_map (fun p : Obj × PyVal => p.1) w0 (memberName cc s) (v, j)
      have e2 := assocPut_map (fun p : Obj × PyVal => p.2) w0 (memberName cc s) (v, j)
      have e3 := put_map (w0.map fun m => (m.1, m.2.2)) (memberName cc s) j
      have e4 : (w0.map fun m => ((.str m.1, m.2.2) : PyVal × PyVal)) =
          (w0.map fun m => (m.1, m.2.2)).map fun m => (.str m.1, m.2) := by
        rw [List.map_map]; rfl
      rw [e4, e3, ← e2, List.map_map] at h
      have h4 := shown_snoc h1 s hv
      rw [← e1] at h4
      obtain ⟨w, h5, h6⟩ := jsonifyItems_shows cc items hk' h4 (by
        intro m hm
        obtain ⟨n, x⟩ := m
        have hnd : (w0.map Prod.fst).Nodup := by
          have := h1.2.1
          rwa [List.map_map] at this
        rcases (mem_assocPut hnd _ _ _ _).mp hm with ⟨rfl, rfl⟩ | ⟨-, hm⟩
        · exact h3
        · exact h2 _ hm) h
      exact ⟨w, by simpa using h5, h6⟩

end

mutual

/-- `jsonify` raises only two errors. -/
theorem jsonify_errors (cc : Bool) :
    ∀ (o : Obj) {e : Exc}, jsonify cc o = .error e →
      e = .lib .jsonConversion ∨ e = .lib .unimplemented
  | .enum o, e, h => by rw [jsonify] at h; exact jsonify_errors cc o h
  | .inst d, e, h => by
    rw [jsonify] at h
    split_ifs at h with hd
    · cases hr : jsonifyItems cc d [] with
      | ok r => rw [hr] at h; cases h
      | error x => rw [hr] at h; cases h; exact jsonifyItems_errors cc d hr
    · cases h; exact Or.inl rfl
  | .dict d, e, h => by
    rw [jsonify] at h
    split_ifs at h with hd
    · cases hr : jsonifyItems cc d [] with
      | ok r => rw [hr] at h; cases h
      | error x => rw [hr] at h; cases h; exact jsonifyItems_errors cc d hr
    · cases h; exact Or.inl rfl
  | .bytes b, e, h => by rw [jsonify] at h; cases h
  | .str s, e, h => by rw [jsonify] at h; cases h
  | .int n, e, h => by rw [jsonify] at h; cases h
  | .float f, e, h => by rw [jsonify] at h; cases h
  | .bool b, e, h => by rw [jsonify] at h; cases h
  | .list l, e, h => by
    rw [jsonify] at h
    cases hr : jsonifyList cc l with
    | ok r => rw [hr] at h; cases h
    | error x => rw [hr] at h; cases h; exact jsonifyList_errors cc l hr
  | .tuple l, e, h => by
    rw [jsonify] at h
    cases hr : jsonifyList cc l with
    | ok r => rw [hr] at h; cases h
    | error x => rw [hr] at h; cases h; exact jsonifyList_errors cc l hr
  | .none, e, h => by rw [jsonify] at h; cases h
  | .other, e, h => by rw [jsonify] at h; cases h; exact Or.inr rfl

theorem jsonifyList_errors (cc : Bool) :
    ∀ (l : List Obj) {e : Exc}, jsonifyList cc l = .error e →
      e = .lib .jsonConversion ∨ e = .lib .unimplemented
  | [], e, h => by rw [jsonifyList] at h; cases h
  | x :: xs, e, h => by
    rw [jsonifyList] at h
    cases hx : jsonify cc x with
    | error y => rw [hx] at h; cases h; exact jsonify_errors cc x hx
    | ok v =>
      rw [hx, ok_bind] at h
      cases hr : jsonifyList cc xs with
      | ok r => rw [hr] at h; cases h
      | error y => rw [hr] at h; cases h; exact jsonifyList_errors cc xs hr

theorem jsonifyItems_errors (cc : Bool) :
    ∀ (d : List (Obj × Obj)) {acc : Dict} {e : Exc}, jsonifyItems cc d acc = .error e →
      e = .lib .jsonConversion ∨ e = .lib .unimplemented
  | [], acc, e, h => by rw [jsonifyItems] at h; cases h
  | (k, v) :: d, acc, e, h => by
    cases k with
    | str s =>
      rw [jsonifyItems] at h
      split_ifs at h
      · exact jsonifyItems_errors cc d h
      · cases hx : jsonify cc v with
        | error y => rw [hx] at h; cases h; exact jsonify_errors cc v hx
        | ok j => rw [hx, ok_bind] at h; exact jsonifyItems_errors cc d h
    | _ => rw [jsonifyItems] at h <;> first | exact jsonifyItems_errors cc d h | simp

end

/-- A supported object is converted. -/
theorem jsonify_supported (cc : Bool) {o : Obj} (h : Supported o) : ∃ v, jsonify cc o = .ok v := by
  have hlist : ∀ l : List Obj, (∀ x ∈ l, ∃ v, jsonify cc x = .ok v) →
      ∃ vs, jsonifyList cc l = .ok vs := by
    intro l hl
    induction l with
    | nil => exact ⟨[], by rw [jsonifyList]⟩
    | cons x xs ih =>
      obtain ⟨v, hv⟩ := hl x (by simp)
      obtain ⟨vs, hvs⟩ := ih fun y hy => hl y (by simp [hy])
      exact ⟨v :: vs, by rw [jsonifyList, hv, ok_bind, hvs, ok_bind]; rfl⟩
  have hitems : ∀ (d : List (Obj × Obj)) (acc : Dict), (∀ kv ∈ d, ∃ s, kv.1 = .str s) →
      (∀ kv ∈ d, ∃ v, jsonify cc kv.2 = .ok v) → ∃ r, jsonifyItems cc d acc = .ok r := by
    intro d
    induction d with
    | nil => exact fun acc _ _ => ⟨acc, by rw [jsonifyItems]⟩
    | cons kv d ih =>
      intro acc h1 h2
      obtain ⟨k, v⟩ := kv
      obtain ⟨s, hs⟩ := h1 (k, v) (by simp)
      simp only at hs
      subst hs
      obtain ⟨j, hj⟩ := h2 (.str s, v) (by simp)
      rw [jsonifyItems]
      split_ifs
      · exact ih _ (fun kv hkv => h1 kv (by simp [hkv])) fun kv hkv => h2 kv (by simp [hkv])
      · simp only at hj
        rw [hj, ok_bind]
        exact ih _ (fun kv hkv => h1 kv (by simp [hkv])) fun kv hkv => h2 kv (by simp [hkv])
  induction h with
  | none => exact ⟨_, by rw [jsonify]⟩
  | bool b => exact ⟨_, by rw [jsonify]⟩
  | int n => exact ⟨_, by rw [jsonify]⟩
  | float f => exact ⟨_, by rw [jsonify]⟩
  | str s => exact ⟨_, by rw [jsonify]⟩
  | bytes b => exact ⟨_, by rw [jsonify]⟩
  | enum v _ ih => rw [jsonify]; exact ih
  | list l _ ih =>
    obtain ⟨vs, h⟩ := hlist l ih
    exact ⟨_, by rw [jsonify, h, ok_bind]; rfl⟩
  | tuple l _ ih =>
    obtain ⟨vs, h⟩ := hlist l ih
    exact ⟨_, by rw [jsonify, h, ok_bind]; rfl⟩
  | dict d h1 _ ih =>
    obtain ⟨r, h⟩ := hitems d [] h1 ih
    exact ⟨_, by rw [jsonify, if_pos (allStr_iff.mpr h1), h, ok_bind]; rfl⟩
  | inst d h1 _ ih =>
    obtain ⟨r, h⟩ := hitems d [] h1 ih
    exact ⟨_, by rw [jsonify, if_pos (allStr_iff.mpr h1), h, ok_bind]; rfl⟩

mutual

/-- What `jsonify` converts is supported. -/
theorem jsonify_ok_supported (cc : Bool) :
    ∀ (o : Obj) {v : PyVal}, jsonify cc o = .ok v → Supported o
  | .enum o, v, h => by rw [jsonify] at h; exact .enum o (jsonify_ok_supported cc o h)
  | .inst d, v, h => by
    rw [jsonify] at h
    split_ifs at h with hd
    · simp only [bind_ok_iff] at h
      obtain ⟨r, h, -⟩ := h
      exact .inst d (allStr_iff.mp hd) (jsonifyItems_ok_supported cc d (allStr_iff.mp hd) h)
    · cases h
  | .dict d, v, h => by
    rw [jsonify] at h
    split_ifs at h with hd
    · simp only [bind_ok_iff] at h
      obtain ⟨r, h, -⟩ := h
      exact .dict d (allStr_iff.mp hd) (jsonifyItems_ok_supported cc d (allStr_iff.mp hd) h)
    · cases h
  | .bytes b, v, h => .bytes b
  | .str s, v, h => .str s
  | .int n, v, h => .int n
  | .float f, v, h => .float f
  | .bool b, v, h => .bool b
  | .list l, v, h => by
    rw [jsonify] at h
    simp only [bind_ok_iff] at h
    obtain ⟨r, h, -⟩ := h
    exact .list l (jsonifyList_ok_supported cc l h)
  | .tuple l, v, h => by
    rw [jsonify] at h
    simp only [bind_ok_iff] at h
    obtain ⟨r, h, -⟩ := h
    exact .tuple l (jsonifyList_ok_supported cc l h)
  | .none, v, h => .none
  | .other, v, h => by rw [jsonify] at h; cases h

theorem jsonifyList_ok_supported (cc : Bool) :
    ∀ (l : List Obj) {vs : List PyVal}, jsonifyList cc l = .ok vs → ∀ x ∈ l, Supported x
  | [], vs, h => by simp
  | x :: xs, vs, h => by
    rw [jsonifyList] at h
    simp only [bind_ok_iff] at h
    obtain ⟨v, h1, ws, h2, -⟩ := h
    have h3 := jsonify_ok_supported cc x h1
    have h4 := jsonifyList_ok_supported cc xs h2
    intro y hy
    rw [List.mem_cons] at hy
    rcases hy with rfl | hy
    · exact h3
    · exact h4 y hy

theorem jsonifyItems_ok_supported (cc : Bool) :
    ∀ (d : List (Obj × Obj)) {acc r : Dict}, (∀ kv ∈ d, ∃ s, kv.1 = .str s) →
      jsonifyItems cc d acc = .ok r → ∀ kv ∈ d, Supported kv.2
  | [], acc, r, _, h => by simp
  | (k, v) :: d, acc, r, hk, h => by
    obtain ⟨s, hs⟩ := hk (k, v) (by simp)
    simp only at hs
    subst hs
    have hk' : ∀ kv ∈ d, ∃ s, kv.1 = .str s := fun kv hkv => hk kv (by simp [hkv])
    rw [jsonifyItems] at h
    split_ifs at h with hv
    · have h4 := jsonifyItems_ok_supported cc d hk' h
      intro kv hkv
      rw [List.mem_cons] at hkv
      rcases hkv with rfl | hkv
      · rw [isNone_iff] at hv
        subst hv
        exact .none
      · exact h4 kv hkv
    · simp only [bind_ok_iff] at h
      obtain ⟨j, hj, h⟩ := h
      have h3 := jsonify_ok_supported cc v hj
      have h4 := jsonifyItems_ok_supported cc d hk' h
      intro kv hkv
      rw [List.mem_cons] at hkv
      rcases hkv with rfl | hkv
      · exact h3
      · exact h4 kv hkv

end

/-- What shows a regular object is a JSON value, and null only for `None`. -/
theorem shows_json {name : String → String} {o : Obj} {j : PyVal} (h : Shows name o j) :
    Regular o → JsonValue j ∧ (o ≠ .none → j ≠ .none) := by
  have members : ∀ (items : List (Obj × Obj)) (w : List (String × Obj × PyVal)),
      ShownMembers name items (w.map fun m => (m.1, m.2.1)) →
      (∀ m ∈ w, Regular m.2.1 → JsonValue m.2.2 ∧ (m.2.1 ≠ .none → m.2.2 ≠ .none)) →
      (∀ kv ∈ items, Regular kv.2) → JsonValue (.dict (w.map fun m => (.str m.1, m.2.2))) := by
    intro items w hs hw hr
    have key : ∀ m ∈ w, JsonValue m.2.2 ∧ m.2.2 ≠ .none := by
      intro m hm
      have h1 : (m.1, m.2.1) ∈ w.map fun m => (m.1, m.2.1) := List.mem_map.mpr ⟨m, hm, rfl⟩
      obtain ⟨pre, s, post, rfl, hn, -⟩ := (hs.2.2 _ _).mp h1
      have := hw m hm (hr (.str s, m.2.1) (by simp))
      exact ⟨this.1, this.2 hn⟩
    refine .dict _ ?_ ?_ ?_
    · rintro kv hkv
      obtain ⟨m, hm, rfl⟩ := List.mem_map.mp hkv
      exact ⟨⟨_, rfl⟩, (key m hm).2⟩
    · have := hs.2.1
      rw [List.map_map] at this ⊢
      have h2 : (w.map (Prod.fst ∘ fun m => ((.str m.1, m.2.2) : PyVal × PyVal))) =
          (w.map (Prod.fst ∘ fun m => (m.1, m.2.1))).map PyVal.str := by
        rw [List.map_map]; rfl
      rw [h2]
      exact List.Pairwise.map PyVal.str (fun _ _ h h' => h (by cases h'; rfl)) this
    · rintro kv hkv
      obtain ⟨m, hm, rfl⟩ := List.mem_map.mp hkv
      exact (key m hm).1
  induction h with
  | none => exact fun _ => ⟨.null, fun h => absurd rfl h⟩
  | bool b => exact fun _ => ⟨.bool b, fun _ => nofun⟩
  | int n => exact fun _ => ⟨.int n, fun _ => nofun⟩
  | float f =>
    intro hr
    cases hr with
    | float _ hf => exact ⟨.float f hf, fun _ => nofun⟩
  | str s => exact fun _ => ⟨.str s, fun _ => nofun⟩
  | bytes b t _ => exact fun _ => ⟨.str t, fun _ => nofun⟩
  | enum v j _ ih =>
    intro hr
    cases hr with
    | enum _ hn hv => exact ⟨(ih hv).1, fun _ => (ih hv).2 hn⟩
  | list l _ ih =>
    intro hr
    cases hr with
    | list _ hl =>
      refine ⟨.list _ fun v hv => ?_, fun _ => nofun⟩
      obtain ⟨p, hp, rfl⟩ := List.mem_map.mp hv
      exact (ih p hp (hl _ (List.mem_map.mpr ⟨p, hp, rfl⟩))).1
  | tuple l _ ih =>
    intro hr
    cases hr with
    | tuple _ hl =>
      refine ⟨.list _ fun v hv => ?_, fun _ => nofun⟩
      obtain ⟨p, hp, rfl⟩ := List.mem_map.mp hv
      exact (ih p hp (hl _ (List.mem_map.mpr ⟨p, hp, rfl⟩))).1
  | dict items w hs _ ih =>
    intro hr
    cases hr with
    | dict _ hd => exact ⟨members items w hs ih hd, fun _ => nofun⟩
  | inst items w hs _ ih =>
    intro hr
    cases hr with
    | inst _ hd => exact ⟨members items w hs ih hd, fun _ => nofun⟩

end WebAuthn
