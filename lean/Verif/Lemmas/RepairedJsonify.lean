import Mathlib.Data.List.Nodup
import Verif.Lemmas.Jsonify
import Verif.Model.Repaired

/-!
# The repaired `jsonify`
-/

namespace WebAuthn

open Spec

theorem isFinite_iff {f : PyFloat} : Repaired.isFinite f = true ↔ Finite f := by
  rw [Repaired.isFinite, bne_iff_ne, Finite]

theorem pyIsNone_iff {v : PyVal} : v.isNone = true ↔ v = .none := by
  cases v <;> simp [PyVal.isNone]

theorem withoutNullsList_eq (l : List PyVal) : withoutNullsList l = l.map withoutNulls := by
  induction l with
  | nil => rfl
  | cons v l ih => rw [withoutNullsList, ih, List.map_cons]

theorem withoutNulls_none {v : PyVal} : withoutNulls v = .none ↔ v = .none := by
  cases v <;> simp [withoutNulls]

theorem withoutNullsDict_eq (d : Dict) : withoutNullsDict d =
    (d.map fun kv => (kv.1, withoutNulls kv.2)).filter fun kv => !kv.2.isNone := by
  induction d with
  | nil => rfl
  | cons kv d ih =>
    obtain ⟨k, v⟩ := kv
    rw [List.map_cons]
    by_cases hv : v = .none
    · subst hv
      rw [withoutNullsDict, ih, List.filter_cons_of_neg]
      simp [withoutNulls, PyVal.isNone]
    · rw [withoutNullsDict, ih, List.filter_cons_of_pos]
      · rw [Bool.not_eq_true', ← Bool.not_eq_true, pyIsNone_iff, withoutNulls_none]
        exact hv
      · exact hv

theorem put_withoutNulls (d : Dict) (n : String) (j : PyVal) :
    Dict.put (d.map fun kv => (kv.1, withoutNulls kv.2)) n (withoutNulls j) =
      (Dict.put d n j).map fun kv => (kv.1, withoutNulls kv.2) := by
  induction d with
  | nil => rfl
  | cons kv d ih =>
    obtain ⟨k, v⟩ := kv
    simp only [List.map_cons, Dict.put]
    split_ifs
    · rfl
    · rw [List.map_cons, ih]

mutual

/-- On finite floats the repaired `jsonify` leaves out the null members and does
nothing else. -/
theorem repaired_jsonify (cc : Bool) : ∀ o : Obj, FiniteFloats o →
    Repaired.jsonify cc o = (jsonify cc o).map withoutNulls
  | .enum o, h => by
    rw [Repaired.jsonify, jsonify]
    cases h with
    | enum _ h => exact repaired_jsonify cc o h
  | .inst d, h => by
    rw [Repaired.jsonify, jsonify]
    have h : ∀ kv ∈ d, FiniteFloats kv.2 := by cases h with | inst _ h => exact h
    have := repaired_jsonifyItems cc d [] h
    rw [List.map_nil] at this
    split_ifs
    · rw [this]
      cases jsonifyItems cc d [] with
      | error e => rfl
      | ok r =>
        change Except.ok _ = Except.ok _
        rw [withoutNulls, withoutNullsDict_eq]
    · rfl
  | .dict d, h => by
    rw [Repaired.jsonify, jsonify]
    have h : ∀ kv ∈ d, FiniteFloats kv.2 := by cases h with | dict _ h => exact h
    have := repaired_jsonifyItems cc d [] h
    rw [List.map_nil] at this
    split_ifs
    · rw [this]
      cases jsonifyItems cc d [] with
      | error e => rfl
      | ok r =>
        change Except.ok _ = Except.ok _
        rw [withoutNulls, withoutNullsDict_eq]
    · rfl
  | .bytes b, _ => by rw [Repaired.jsonify, jsonify]; rfl
  | .str s, _ => by rw [Repaired.jsonify, jsonify]; rfl
  | .int n, _ => by rw [Repaired.jsonify, jsonify]; rfl
  | .float f, h => by
    rw [Repaired.jsonify, jsonify]
    cases h with
    | float _ h => rw [if_pos (isFinite_iff.mpr h)]; rfl
  | .bool b, _ => by rw [Repaired.jsonify, jsonify]; rfl
  | .list l, h => by
    rw [Repaired.jsonify, jsonify]
    have h : ∀ x ∈ l, FiniteFloats x := by cases h with | list _ h => exact h
    rw [repaired_jsonifyList cc l h]
    cases jsonifyList cc l with
    | error e => rfl
    | ok r =>
      change Except.ok _ = Except.ok _
      rw [withoutNulls, withoutNullsList_eq]
  | .tuple l, h => by
    rw [Repaired.jsonify, jsonify]
    have h : ∀ x ∈ l, FiniteFloats x := by cases h with | tuple _ h => exact h
    rw [repaired_jsonifyList cc l h]
    cases jsonifyList cc l with
    | error e => rfl
    | ok r =>
      change Except.ok _ = Except.ok _
      rw [withoutNulls, withoutNullsList_eq]
  | .none, _ => by rw [Repaired.jsonify, jsonify]; rfl
  | .other, _ => by rw [Repaired.jsonify, jsonify]; rfl

theorem repaired_jsonifyList (cc : Bool) : ∀ l : List Obj, (∀ x ∈ l, FiniteFloats x) →
    Repaired.jsonifyList cc l = (jsonifyList cc l).map (List.map withoutNulls)
  | [], _ => by rw [Repaired.jsonifyList, jsonifyList]; rfl
  | x :: xs, h => by
    rw [Repaired.jsonifyList, jsonifyList, repaired_jsonify cc x (h x (by simp)),
      repaired_jsonifyList cc xs fun y hy => h y (by simp [hy])]
    cases jsonify cc x with
    | error e => rfl
    | ok v => cases jsonifyList cc xs <;> rfl

theorem repaired_jsonifyItems (cc : Bool) : ∀ (d : List (Obj × Obj)) (acc : Dict),
    (∀ kv ∈ d, FiniteFloats kv.2) →
    Repaired.jsonifyItems cc d (acc.map fun kv => (kv.1, withoutNulls kv.2)) =
      (jsonifyItems cc d acc).map (List.map fun kv => (kv.1, withoutNulls kv.2))
  | [], acc, _ => by rw [Repaired.jsonifyItems, jsonifyItems]; rfl
  | (k, v) :: d, acc, h => by
    have h1 : FiniteFloats v := h (k, v) (by simp)
    have h2 : ∀ kv ∈ d, FiniteFloats kv.2 := fun kv hkv => h kv (by simp [hkv])
    cases k with
    | str s =>
      rw [Repaired.jsonifyItems, jsonifyItems]
      split_ifs
      · exact repaired_jsonifyItems cc d acc h2
      · rw [repaired_jsonify cc v h1]
        cases jsonify cc v with
        | error e => rfl
        | ok j =>
          change Repaired.jsonifyItems cc d (Dict.put _ _ _) = (jsonifyItems cc d _).map _
          rw [put_withoutNulls]
          exact repaired_jsonifyItems cc d _ h2
    | _ =>
      rw [Repaired.jsonifyItems, jsonifyItems] <;>
        first | exact repaired_jsonifyItems cc d acc h2 | simp

end

mutual

/-- The repaired `jsonify` refuses floats that are no numbers. -/
theorem repaired_jsonify_finite (cc : Bool) : ∀ (o : Obj) {v : PyVal},
    Repaired.jsonify cc o = .ok v → FiniteFloats o
  | .enum o, v, h => by
    rw [Repaired.jsonify] at h
    exact .enum o (repaired_jsonify_finite cc o h)
  | .inst d, v, h => by
    rw [Repaired.jsonify] at h
    split_ifs at h with hd
    · simp only [bind_ok_iff] at h
      obtain ⟨r, h, -⟩ := h
      exact .inst d (repaired_jsonifyItems_finite cc d (allStr_iff.mp hd) h)
    · cases h
  | .dict d, v, h => by
    rw [Repaired.jsonify] at h
    split_ifs at h with hd
    · simp only [bind_ok_iff] at h
      obtain ⟨r, h, -⟩ := h
      exact .dict d (repaired_jsonifyItems_finite cc d (allStr_iff.mp hd) h)
    · cases h
  | .bytes b, _, _ => .bytes b
  | .str s, _, _ => .str s
  | .int n, _, _ => .int n
  | .float f, v, h => by
    rw [Repaired.jsonify] at h
    split_ifs at h with hf
    · exact .float f (isFinite_iff.mp hf)
    · cases h
  | .bool b, _, _ => .bool b
  | .list l, v, h => by
    rw [Repaired.jsonify] at h
    simp only [bind_ok_iff] at h
    obtain ⟨r, h, -⟩ := h
    exact .list l (repaired_jsonifyList_finite cc l h)
  | .tuple l, v, h => by
    rw [Repaired.jsonify] at h
    simp only [bind_ok_iff] at h
    obtain ⟨r, h, -⟩ := h
    exact .tuple l (repaired_jsonifyList_finite cc l h)
  | .none, _, _ => .none
  | .other, _, _ => .other

theorem repaired_jsonifyList_finite (cc : Bool) : ∀ (l : List Obj) {vs : List PyVal},
    Repaired.jsonifyList cc l = .ok vs → ∀ x ∈ l, FiniteFloats x
  | [], _, _ => by simp
  | x :: xs, vs, h => by
    rw [Repaired.jsonifyList] at h
    simp only [bind_ok_iff] at h
    obtain ⟨v, h1, ws, h2, -⟩ := h
    have h3 := repaired_jsonify_finite cc x h1
    have h4 := repaired_jsonifyList_finite cc xs h2
    intro y hy
    rw [List.mem_cons] at hy
    rcases hy with rfl | hy
    · exact h3
    · exact h4 y hy

theorem repaired_jsonifyItems_finite (cc : Bool) : ∀ (d : List (Obj × Obj)) {acc r : Dict},
    (∀ kv ∈ d, ∃ s, kv.1 = .str s) → Repaired.jsonifyItems cc d acc = .ok r →
    ∀ kv ∈ d, FiniteFloats kv.2
  | [], _, _, _, _ => by simp
  | (k, v) :: d, acc, r, hk, h => by
    obtain ⟨s, hs⟩ := hk (k, v) (by simp)
    simp only at hs
    subst hs
    have hk' : ∀ kv ∈ d, ∃ s, kv.1 = .str s := fun kv hkv => hk kv (by simp [hkv])
    have key : FiniteFloats v ∧ ∀ kv ∈ d, FiniteFloats kv.2 := by
      rw [Repaired.jsonifyItems] at h
      split_ifs at h with hv
      · rw [isNone_iff] at hv
        subst hv
        exact ⟨.none, repaired_jsonifyItems_finite cc d hk' h⟩
      · simp only [bind_ok_iff] at h
        obtain ⟨j, hj, h⟩ := h
        exact ⟨repaired_jsonify_finite cc v hj, repaired_jsonifyItems_finite cc d hk' h⟩
    intro kv hkv
    rw [List.mem_cons] at hkv
    rcases hkv with rfl | hkv
    · exact key.1
    · exact key.2 kv hkv

end

mutual

/-- The repaired `jsonify` raises only two errors. -/
theorem repaired_jsonify_errors (cc : Bool) : ∀ (o : Obj) {e : Exc},
    Repaired.jsonify cc o = .error e → e = .lib .jsonConversion ∨ e = .lib .unimplemented
  | .enum o, e, h => by rw [Repaired.jsonify] at h; exact repaired_jsonify_errors cc o h
  | .inst d, e, h => by
    rw [Repaired.jsonify] at h
    split_ifs at h with hd
    · cases hr : Repaired.jsonifyItems cc d [] with
      | ok r => rw [hr] at h; cases h
      | error x => rw [hr] at h; cases h; exact repaired_jsonifyItems_errors cc d hr
    · cases h; exact Or.inl rfl
  | .dict d, e, h => by
    rw [Repaired.jsonify] at h
    split_ifs at h with hd
    · cases hr : Repaired.jsonifyItems cc d [] with
      | ok r => rw [hr] at h; cases h
      | error x => rw [hr] at h; cases h; exact repaired_jsonifyItems_errors cc d hr
    · cases h; exact Or.inl rfl
  | .bytes b, e, h => by rw [Repaired.jsonify] at h; cases h
  | .str s, e, h => by rw [Repaired.jsonify] at h; cases h
  | .int n, e, h => by rw [Repaired.jsonify] at h; cases h
  | .float f, e, h => by
    rw [Repaired.jsonify] at h
    split_ifs at h
    cases h
    exact Or.inl rfl
  | .bool b, e, h => by rw [Repaired.jsonify] at h; cases h
  | .list l, e, h => by
    rw [Repaired.jsonify] at h
    cases hr : Repaired.jsonifyList cc l with
    | ok r => rw [hr] at h; cases h
    | error x => rw [hr] at h; cases h; exact repaired_jsonifyList_errors cc l hr
  | .tuple l, e, h => by
    rw [Repaired.jsonify] at h
    cases hr : Repaired.jsonifyList cc l with
    | ok r => rw [hr] at h; cases h
    | error x => rw [hr] at h; cases h; exact repaired_jsonifyList_errors cc l hr
  | .none, e, h => by rw [Repaired.jsonify] at h; cases h
  | .other, e, h => by rw [Repaired.jsonify] at h; cases h; exact Or.inr rfl

theorem repaired_jsonifyList_errors (cc : Bool) : ∀ (l : List Obj) {e : Exc},
    Repaired.jsonifyList cc l = .error e → e = .lib .jsonConversion ∨ e = .lib .unimplemented
  | [], e, h => by rw [Repaired.jsonifyList] at h; cases h
  | x :: xs, e, h => by
    rw [Repaired.jsonifyList] at h
    cases hx : Repaired.jsonify cc x with
    | error y => rw [hx] at h; cases h; exact repaired_jsonify_errors cc x hx
    | ok v =>
      rw [hx, ok_bind] at h
      cases hr : Repaired.jsonifyList cc xs with
      | ok r => rw [hr] at h; cases h
      | error y => rw [hr] at h; cases h; exact repaired_jsonifyList_errors cc xs hr

theorem repaired_jsonifyItems_errors (cc : Bool) : ∀ (d : List (Obj × Obj)) {acc : Dict} {e : Exc},
    Repaired.jsonifyItems cc d acc = .error e →
      e = .lib .jsonConversion ∨ e = .lib .unimplemented
  | [], acc, e, h => by rw [Repaired.jsonifyItems] at h; cases h
  | (k, v) :: d, acc, e, h => by
    cases k with
    | str s =>
      rw [Repaired.jsonifyItems] at h
      split_ifs at h
      · exact repaired_jsonifyItems_errors cc d h
      · cases hx : Repaired.jsonify cc v with
        | error y => rw [hx] at h; cases h; exact repaired_jsonify_errors cc v hx
        | ok j => rw [hx, ok_bind] at h; exact repaired_jsonifyItems_errors cc d h
    | _ => rw [Repaired.jsonifyItems] at h <;> first | exact repaired_jsonifyItems_errors cc d h | simp

end

/-- What shows an object with finite floats is a JSON value once the null members
are left out. -/
theorem withoutNulls_json {name : String → String} {o : Obj} {v : PyVal} (h : Shows name o v)
    (hf : FiniteFloats o) : JsonValue (withoutNulls v) := by
  have hdict : ∀ (items : List (Obj × Obj)) (w : List (String × Obj × PyVal)),
      ShownMembers name items (w.map fun m => (m.1, m.2.1)) →
      (∀ m ∈ w, FiniteFloats m.2.1 → JsonValue (withoutNulls m.2.2)) →
      (∀ kv ∈ items, FiniteFloats kv.2) →
      JsonValue (withoutNulls (.dict (w.map fun m => (.str m.1, m.2.2)))) := by
    intro items w hw ih hi
    rw [withoutNulls, withoutNullsDict_eq, List.map_map]
    refine .dict _ ?_ ?_ ?_
    · intro kv hkv
      rw [List.mem_filter, List.mem_map] at hkv
      obtain ⟨⟨m, -, rfl⟩, hn⟩ := hkv
      refine ⟨⟨m.1, rfl⟩, fun hc => ?_⟩
      rw [Bool.not_eq_true', ← Bool.not_eq_true] at hn
      exact hn (pyIsNone_iff.mpr hc)
    · refine List.Nodup.sublist (List.Sublist.map _ List.filter_sublist) ?_
      rw [List.map_map]
      have h1 := hw.2.1
      rw [List.map_map] at h1
      have h2 := List.Nodup.map (f := fun s => PyVal.str s) (fun a b hab => by simpa using hab) h1
      rw [List.map_map] at h2
      exact h2
    · intro kv hkv
      rw [List.mem_filter, List.mem_map] at hkv
      obtain ⟨⟨m, hm, rfl⟩, -⟩ := hkv
      refine ih m hm ?_
      obtain ⟨pre, s, post, h3, -⟩ := (hw.2.2 m.1 m.2.1).mp (List.mem_map.mpr ⟨m, hm, rfl⟩)
      exact hi (.str s, m.2.1) (by rw [h3]; simp)
  induction h with
  | none => exact .null
  | bool b => exact .bool b
  | int n => exact .int n
  | float f =>
    cases hf with
    | float _ h => exact .float f h
  | str s => exact .str s
  | bytes b t _ => exact .str t
  | enum v j _ ih =>
    cases hf with
    | enum _ h => exact ih h
  | list l _ ih =>
    have hf : ∀ x ∈ l.map Prod.fst, FiniteFloats x := by cases hf with | list _ h => exact h
    rw [withoutNulls, withoutNullsList_eq]
    refine .list _ fun v hv => ?_
    rw [List.map_map, List.mem_map] at hv
    obtain ⟨p, hp, rfl⟩ := hv
    exact ih p hp (hf _ (List.mem_map.mpr ⟨p, hp, rfl⟩))
  | tuple l _ ih =>
    have hf : ∀ x ∈ l.map Prod.fst, FiniteFloats x := by cases hf with | tuple _ h => exact h
    rw [withoutNulls, withoutNullsList_eq]
    refine .list _ fun v hv => ?_
    rw [List.map_map, List.mem_map] at hv
    obtain ⟨p, hp, rfl⟩ := hv
    exact ih p hp (hf _ (List.mem_map.mpr ⟨p, hp, rfl⟩))
  | dict items w hw _ ih =>
    exact hdict items w hw ih (by cases hf with | dict _ h => exact h)
  | inst items w hw _ ih =>
    exact hdict items w hw ih (by cases hf with | inst _ h => exact h)

/-- There is nothing to leave out of a JSON value without null members. -/
theorem withoutNulls_of_json {v : PyVal} (h : JsonValue v) : withoutNulls v = v := by
  induction h with
  | list l _ ih =>
    rw [withoutNulls, withoutNullsList_eq]
    exact congrArg PyVal.list (List.map_congr_left (g := id) ih |>.trans (List.map_id l))
  | dict d h1 _ _ ih =>
    rw [withoutNulls, withoutNullsDict_eq]
    have : d.map (fun kv => (kv.1, withoutNulls kv.2)) = d := by
      refine (List.map_congr_left (g := id) fun kv hkv => ?_).trans (List.map_id d)
      rw [ih kv hkv]
      rfl
    rw [this, List.filter_eq_self.mpr]
    intro kv hkv
    rw [Bool.not_eq_true', ← Bool.not_eq_true, pyIsNone_iff]
    exact (h1 kv hkv).2
  | _ => rfl

theorem regular_finite {o : Obj} (h : Regular o) : FiniteFloats o := by
  induction h with
  | none => exact .none
  | bool b => exact .bool b
  | int n => exact .int n
  | float f h => exact .float f h
  | str s => exact .str s
  | bytes b => exact .bytes b
  | enum v _ _ ih => exact .enum v ih
  | list l _ ih => exact .list l ih
  | tuple l _ ih => exact .tuple l ih
  | dict d _ ih => exact .dict d ih
  | inst d _ ih => exact .inst d ih
  | other => exact .other

end WebAuthn
