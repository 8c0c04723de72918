import Verif.Lemmas.Jsonify
import Verif.Spec.Options

/-!
# Lemmas about the options
-/

namespace WebAuthn

open Spec

theorem put_fresh {d : Dict} {n : String} (j : PyVal) (h : .str n ∉ d.map Prod.fst) :
    d.put n j = d ++ [(.str n, j)] := by
  induction d with
  | nil => rfl
  | cons kv d ih =>
    obtain ⟨k, v⟩ := kv
    rw [List.map_cons, List.mem_cons, not_or] at h
    have hk : ¬ (k.isKey (.str n) = true) := by
      intro hk
      cases k with
      | str s =>
        simp only [PyVal.isKey, beq_iff_eq] at hk
        exact h.1 (by rw [hk])
      | _ => simp [PyVal.isKey] at hk
    rw [Dict.put, if_neg hk, ih h.2]
    rfl

/-- An attribute and the member that shows it. -/
def FieldOk (kv : Obj × Obj) (np : String × Option Check) : Prop :=
  ∃ k, kv.1 = .str k ∧ snakeToCamel k = np.1 ∧
    ((np.2 = none ∧ kv.2 = .none) ∨
      ∃ P, np.2 = some P ∧ kv.2 ≠ .none ∧ ∃ j, jsonify true kv.2 = .ok j ∧ P j)

theorem jsonifyItems_members {items : List (Obj × Obj)} {fields : List (String × Option Check)}
    (h : List.Forall₂ FieldOk items fields) (hn : (fields.map Prod.fst).Nodup) (acc : Dict)
    (ha : ∀ n ∈ fields.map Prod.fst, .str n ∉ acc.map Prod.fst) :
    ∃ d : Dict, jsonifyItems true items acc = .ok (acc ++ d) ∧ (d.map Prod.fst).Nodup ∧
      (∀ k j, (k, j) ∈ d → ∃ n P, (n, some P) ∈ fields ∧ k = .str n ∧ P j) ∧
      ∀ n P, (n, some P) ∈ fields → ∃ j, (.str n, j) ∈ d ∧ P j := by
  induction h generalizing acc with
  | nil => exact ⟨[], by rw [jsonifyItems, List.append_nil], by simp, by simp, by simp⟩
  | @cons kv np items fields hf _ ih =>
    obtain ⟨k', v⟩ := kv
    obtain ⟨n, p⟩ := np
    obtain ⟨k, hk, hname, hv⟩ := hf
    simp only at hk hname hv
    subst hk
    rw [List.map_cons, List.nodup_cons] at hn
    rcases hv with ⟨rfl, rfl⟩ | ⟨P, rfl, hv, j, hj, hP⟩
    · obtain ⟨d, h1, h2, h3, h4⟩ := ih hn.2 acc fun m hm => ha m (by simp at hm ⊢; exact Or.inr hm)
      refine ⟨d, ?_, h2, ?_, ?_⟩
      · rw [jsonifyItems, if_pos (show Obj.isNone .none = true from rfl), h1]
      · intro k j hkj
        obtain ⟨n', P, hm, h⟩ := h3 k j hkj
        exact ⟨n', P, List.mem_cons_of_mem _ hm, h⟩
      · intro n' P hm
        rw [List.mem_cons] at hm
        rcases hm with hm | hm
        · cases hm
        · exact h4 n' P hm
    · have hfresh : .str n ∉ acc.map Prod.fst := ha n (by simp)
      obtain ⟨d, h1, h2, h3, h4⟩ := ih hn.2 (acc ++ [(.str n, j)]) (by
        intro m hm
        rw [List.map_append, List.mem_append, not_or]
        refine ⟨ha m (List.mem_cons_of_mem _ hm), ?_⟩
        rw [List.map_cons, List.map_nil, List.mem_singleton]
        intro e
        cases e
        exact hn.1 hm)
      refine ⟨(.str n, j) :: d, ?_, ?_, ?_, ?_⟩
      · rw [jsonifyItems, if_neg (by rw [isNone_iff]; exact hv), hj, ok_bind, memberName,
          if_pos rfl, hname, put_fresh j hfresh, h1, List.append_assoc]
        rfl
      · rw [List.map_cons, List.nodup_cons]
        refine ⟨?_, h2⟩
        intro hm
        obtain ⟨⟨k1, j1⟩, hm, e⟩ := List.mem_map.mp hm
        simp only at e
        subst e
        obtain ⟨n', P', hm', e, -⟩ := h3 _ _ hm
        cases e
        exact hn.1 (List.mem_map.mpr ⟨_, hm', rfl⟩)
      · intro k1 j1 hm
        rw [List.mem_cons] at hm
        rcases hm with hm | hm
        · cases hm
          exact ⟨n, P, by simp, rfl, hP⟩
        · obtain ⟨n', P', hm', h⟩ := h3 k1 j1 hm
          exact ⟨n', P', List.mem_cons_of_mem _ hm', h⟩
      · intro n' P' hm
        rw [List.mem_cons] at hm
        rcases hm with hm | hm
        · cases hm
          exact ⟨j, by simp, hP⟩
        · obtain ⟨j', hj', h⟩ := h4 n' P' hm
          exact ⟨j', List.mem_cons_of_mem _ hj', h⟩

theorem jsonify_members {items : List (Obj × Obj)} {fields : List (String × Option Check)}
    (h : List.Forall₂ FieldOk items fields) (hn : (fields.map Prod.fst).Nodup) :
    ∃ v, jsonify true (.inst items) = .ok v ∧ Members fields v := by
  have hs : items.all (fun kv => kv.1.isStr) = true := by
    rw [allStr_iff]
    intro kv hkv
    obtain ⟨np, -, k, hk, -⟩ : ∃ np, np ∈ fields ∧ FieldOk kv np := by
      clear hn
      induction h with
      | nil => cases hkv
      | @cons a b l l' hab _ ih =>
        rw [List.mem_cons] at hkv
        rcases hkv with rfl | hkv
        · exact ⟨b, by simp, hab⟩
        · obtain ⟨np, hm, h⟩ := ih hkv
          exact ⟨np, List.mem_cons_of_mem _ hm, h⟩
    exact ⟨k, hk⟩
  obtain ⟨d, h1, h2, h3, h4⟩ := jsonifyItems_members h hn [] (by simp)
  rw [List.nil_append] at h1
  exact ⟨.dict d, by rw [jsonify, if_pos hs, h1]; rfl, d, rfl, h2, h3, h4⟩

/-- Conversion of a value to one that meets a condition. -/
def Conv (o : Obj) (P : Check) : Prop := o ≠ .none ∧ ∃ j, jsonify true o = .ok j ∧ P j

theorem field_some {k n : String} {o : Obj} {P : Check} (hn : snakeToCamel k = n) (h : Conv o P) :
    FieldOk (.str k, o) (n, some P) :=
  ⟨k, rfl, hn, Or.inr ⟨P, rfl, h⟩⟩

theorem field_opt {α : Type} {k n : String} {f : α → Obj} {P : α → Check} {x : Option α}
    (hn : snakeToCamel k = n) (h : ∀ a, x = some a → Conv (f a) (P a)) :
    FieldOk (.str k, optObj f x) (n, x.map P) := by
  cases x with
  | none => exact ⟨k, rfl, hn, Or.inl ⟨rfl, rfl⟩⟩
  | some a => exact ⟨k, rfl, hn, Or.inr ⟨P a, rfl, h a rfl⟩⟩

theorem conv_inst {items : List (Obj × Obj)} {fields : List (String × Option Check)}
    (h : List.Forall₂ FieldOk items fields) (hn : (fields.map Prod.fst).Nodup) :
    Conv (.inst items) (Members fields) :=
  ⟨nofun, jsonify_members h hn⟩

theorem conv_str (s : String) : Conv (.str s) (IsText s) :=
  ⟨nofun, .str s, by rw [jsonify], rfl⟩

theorem conv_enum (s : String) : Conv (.enum (.str s)) (IsText s) :=
  ⟨nofun, .str s, by rw [jsonify, jsonify], rfl⟩

theorem conv_int (n : Int) : Conv (.int n) (IsInt n) := ⟨nofun, .int n, by rw [jsonify], rfl⟩

theorem conv_bool (b : Bool) : Conv (.bool b) (IsBool b) := ⟨nofun, .bool b, by rw [jsonify], rfl⟩

theorem conv_bytes (b : Bytes) : Conv (.bytes b) (IsBase64 b) :=
  ⟨nofun, .str _, by rw [jsonify], _, rfl, b64encode_encodes b⟩

theorem conv_num (n : Num) : Conv n.toObj (IsNum n) := by
  cases n with
  | int n => exact conv_int n
  | float f => exact ⟨nofun, .float f, by rw [Num.toObj, jsonify], rfl⟩

theorem conv_alg (a : NV Alg) : Conv a.algObj (IsAlg a) := by
  rcases a with a | a <;> cases a <;>
    exact ⟨nofun, _, by simp only [NV.algObj, nvValue]; rfl, rfl⟩

theorem conv_seq {α : Type} {f : α → Obj} {P : α → Check} (s : PySeq α) (hl : Listed s)
    (h : ∀ a ∈ s.items, Conv (f a) (P a)) : Conv (s.toObj f) (IsArray P s) := by
  have key : ∀ l : List α, (∀ a ∈ l, Conv (f a) (P a)) →
      ∃ vs, jsonifyList true (l.map f) = .ok vs ∧ List.Forall₂ P l vs := by
    intro l
    induction l with
    | nil => exact fun _ => ⟨[], by rw [List.map_nil, jsonifyList], .nil⟩
    | cons a l ih =>
      intro h
      obtain ⟨-, j, hj, hP⟩ := h a (by simp)
      obtain ⟨vs, hvs, hF⟩ := ih fun b hb => h b (by simp [hb])
      exact ⟨j :: vs, by rw [List.map_cons, jsonifyList, hj, ok_bind, hvs]; rfl, .cons hP hF⟩
  obtain ⟨vs, hvs, hF⟩ := key s.items h
  unfold PySeq.toObj Listed at *
  cases hk : s.kind with
  | list => exact ⟨nofun, .list vs, by simp only [jsonify, hvs]; rfl, vs, rfl, hF⟩
  | tuple => exact ⟨nofun, .list vs, by simp only [jsonify, hvs]; rfl, vs, rfl, hF⟩
  | other => exact absurd hk hl

theorem conv_rp (r : RpEntity) : Conv r.toObj (RpJson r) :=
  conv_inst (.cons (field_some rfl (conv_str _)) (.cons (field_opt rfl fun _ _ => conv_str _)
    (.cons (field_some rfl (conv_str _)) .nil))) (by simp)

theorem conv_user (u : UserEntity) : Conv u.toObj (UserJson u) :=
  conv_inst (.cons (field_some rfl (conv_str _)) (.cons (field_opt rfl fun _ _ => conv_str _)
    (.cons (field_some rfl (conv_bytes _)) (.cons (field_some rfl (conv_str _)) .nil)))) (by simp)

theorem conv_parameters (p : Parameters) : Conv p.toObj (ParametersJson p) :=
  conv_inst (.cons (field_some rfl (conv_enum _)) (.cons (field_some rfl (conv_alg _)) .nil))
    (by simp)

theorem conv_transport (t : Transport) :
    Conv (.enum (.str t.value)) (IsText (transportText t)) := by
  cases t <;> exact conv_enum _

theorem conv_descriptor (d : FullDescriptor) (h : ∀ t, d.transports = some t → Listed t) :
    Conv d.toObj (DescriptorJson d) :=
  conv_inst (.cons (field_some rfl (conv_enum _)) (.cons (field_some rfl (conv_bytes _))
    (.cons (field_opt rfl fun t ht => conv_seq t (h t ht) fun a _ => conv_transport a) .nil)))
    (by simp)

theorem conv_txAuthGeneric (t : TxAuthGenericArg) : Conv t.toObj (TxAuthGenericJson t) :=
  conv_inst (.cons (field_some rfl (conv_str _)) (.cons (field_some rfl (conv_bytes _)) .nil))
    (by simp)

theorem conv_perfBounds (p : PerfBounds) : Conv p.toObj (PerfBoundsJson p) :=
  conv_inst (.cons (field_some rfl (conv_num _)) (.cons (field_some rfl (conv_num _)) .nil))
    (by simp)

theorem conv_extensions (e : ExtensionInputs) (h : ExtensionsListed e) :
    Conv e.toObj (ExtensionsJson e) :=
  conv_inst (.cons (field_opt rfl fun _ _ => conv_str _) (.cons (field_opt rfl fun _ _ => conv_str _)
    (.cons (field_opt rfl fun _ _ => conv_txAuthGeneric _)
    (.cons (field_opt rfl fun s hs => conv_seq s (h s hs) fun _ _ => conv_bytes _)
    (.cons (field_opt rfl fun _ _ => conv_bool _) (.cons (field_opt rfl fun _ _ => conv_bool _)
    (.cons (field_opt rfl fun _ _ => conv_bool _) (.cons (field_opt rfl fun _ _ => conv_bool _)
    (.cons (field_opt rfl fun _ _ => conv_perfBounds _) .nil))))))))) (by simp)

theorem conv_attachment (a : Attachment) :
    Conv (.enum (.str a.value)) (IsText (attachmentText a)) := by
  cases a <;> exact conv_enum _

theorem conv_verification (v : Verification) :
    Conv (.enum (.str v.value)) (IsText (verificationText v)) := by
  cases v <;> exact conv_enum _

theorem conv_conveyance (v : Conveyance) :
    Conv (.enum (.str v.value)) (IsText (conveyanceText v)) := by
  cases v <;> exact conv_enum _

theorem conv_mediation (v : Mediation) :
    Conv (.enum (.str v.value)) (IsText (mediationText v)) := by
  cases v <;> exact conv_enum _

theorem conv_selection (s : Selection) : Conv s.toObj (SelectionJson s) :=
  conv_inst (.cons (field_opt rfl fun _ _ => conv_attachment _)
    (.cons (field_some rfl (conv_bool _)) (.cons (field_some rfl (conv_verification _)) .nil)))
    (by simp)

theorem conv_descriptors (s : PySeq FullDescriptor) (h : DescriptorsListed s) :
    Conv (s.toObj FullDescriptor.toObj) (IsArray DescriptorJson s) :=
  conv_seq s h.1 fun d hd => conv_descriptor d (h.2 d hd)

theorem conv_creation (o : CreationOptions) (h : CreationListed o) :
    Conv o.toObj (CreationJson o) :=
  conv_inst (.cons (field_some rfl (conv_inst
    (.cons (field_some rfl (conv_rp _)) (.cons (field_some rfl (conv_user _))
    (.cons (field_some rfl (conv_bytes _))
    (.cons (field_some rfl (conv_seq _ h.1 fun _ _ => conv_parameters _))
    (.cons (field_opt rfl fun _ _ => conv_int _)
    (.cons (field_opt rfl fun s hs => conv_descriptors s (h.2.1 s hs))
    (.cons (field_opt rfl fun _ _ => conv_selection _)
    (.cons (field_some rfl (conv_conveyance _))
    (.cons (field_opt rfl fun e he => conv_extensions e (h.2.2 e he)) .nil)))))))))
    (by simp))) .nil) (by simp)

theorem conv_request (o : RequestOptions) (h : RequestListed o) :
    Conv o.toObj (RequestJson o) :=
  conv_inst (.cons (field_some rfl (conv_mediation _)) (.cons (field_some rfl (conv_inst
    (.cons (field_some rfl (conv_bytes _)) (.cons (field_opt rfl fun _ _ => conv_int _)
    (.cons (field_opt rfl fun _ _ => conv_str _)
    (.cons (field_opt rfl fun s hs => conv_descriptors s (h.1 s hs))
    (.cons (field_opt rfl fun _ _ => conv_verification _)
    (.cons (field_opt rfl fun e he => conv_extensions e (h.2 e he)) .nil))))))
    (by simp))) .nil)) (by simp)

/-! ## What is supported -/

theorem supported_inst {items : List (Obj × Obj)} (h : Supported (.inst items)) (i : Nat) {k o : Obj}
    (hi : items[i]? = some (k, o)) : Supported o := by
  cases h with
  | inst _ _ h => exact h _ (List.mem_of_getElem? hi)

theorem supported_seq {α : Type} {f : α → Obj} {s : PySeq α} (h : Supported (s.toObj f)) :
    Listed s ∧ ∀ a ∈ s.items, Supported (f a) := by
  unfold PySeq.toObj at h
  cases hk : s.kind with
  | list =>
    simp only [hk] at h
    cases h with
    | list _ h => exact ⟨by simp [Listed, hk], fun a ha => h _ (List.mem_map.mpr ⟨a, ha, rfl⟩)⟩
  | tuple =>
    simp only [hk] at h
    cases h with
    | tuple _ h => exact ⟨by simp [Listed, hk], fun a ha => h _ (List.mem_map.mpr ⟨a, ha, rfl⟩)⟩
  | other =>
    simp only [hk] at h
    cases h

theorem supported_descriptors {s : PySeq FullDescriptor}
    (h : Supported (s.toObj FullDescriptor.toObj)) : DescriptorsListed s := by
  obtain ⟨h1, h2⟩ := supported_seq h
  refine ⟨h1, fun d hd t ht => ?_⟩
  have := supported_inst (h2 d hd) 2 rfl
  rw [ht] at this
  exact (supported_seq this).1

theorem supported_extensions {e : ExtensionInputs} (h : Supported e.toObj) :
    ExtensionsListed e := by
  intro s hs
  have := supported_inst h 3 rfl
  rw [hs] at this
  exact (supported_seq this).1

theorem supported_creation {o : CreationOptions} (h : Supported o.toObj) : CreationListed o := by
  have h1 := @supported_inst _ (supported_inst h 0 rfl)
  refine ⟨?_, fun s hs => ?_, fun e he => ?_⟩
  · exact (supported_seq (h1 3 rfl)).1
  · have := h1 5 rfl
    rw [hs] at this
    exact supported_descriptors this
  · have := h1 8 rfl
    rw [he] at this
    exact supported_extensions this

theorem supported_request {o : RequestOptions} (h : Supported o.toObj) : RequestListed o := by
  have h1 := @supported_inst _ (supported_inst h 1 rfl)
  refine ⟨fun s hs => ?_, fun e he => ?_⟩
  · have := h1 3 rfl
    rw [hs] at this
    exact supported_descriptors this
  · have := h1 5 rfl
    rw [he] at this
    exact supported_extensions this

/-! ## Setter histories -/

theorem lastSet_cons {σ α : Type} {sets : σ → Option α} {s : σ} {ss : List σ} {before mid after : α}
    (h1 : (sets s = some mid) ∨ (sets s = none ∧ mid = before)) (h2 : LastSet sets ss mid after) :
    LastSet sets (s :: ss) before after := by
  rcases h2 with ⟨pre, t, post, rfl, h3, h4⟩ | ⟨rfl, h3⟩
  · exact Or.inl ⟨s :: pre, t, post, rfl, h3, h4⟩
  · rcases h1 with h1 | ⟨h1, rfl⟩
    · exact Or.inl ⟨[], s, ss, rfl, h1, h3⟩
    · refine Or.inr ⟨rfl, fun t ht => ?_⟩
      rw [List.mem_cons] at ht
      rcases ht with rfl | ht
      · exact h1
      · exact h3 t ht

theorem creation_lastSet {α : Type} (attr : CreationBuilder → α) (sets : CreationSetter → Option α)
    (h : ∀ b s b', b.set s = .ok b' →
      sets s = some (attr b') ∨ (sets s = none ∧ attr b' = attr b))
    {b b' : CreationBuilder} {ss : List CreationSetter} (hb : b.setAll ss = .ok b') :
    LastSet sets ss (attr b) (attr b') := by
  induction ss generalizing b with
  | nil =>
    rw [CreationBuilder.setAll] at hb
    cases hb
    exact Or.inr ⟨rfl, by simp⟩
  | cons s ss ih =>
    rw [CreationBuilder.setAll, bind_ok_iff] at hb
    obtain ⟨c, h1, h2⟩ := hb
    exact lastSet_cons (h b s c h1) (ih h2)

theorem creation_setAll_mem {b b' : CreationBuilder} {ss : List CreationSetter}
    (hb : b.setAll ss = .ok b') {s : CreationSetter} (hs : s ∈ ss) :
    ∃ c c' : CreationBuilder, c.set s = .ok c' := by
  induction ss generalizing b with
  | nil => cases hs
  | cons t ss ih =>
    rw [CreationBuilder.setAll, bind_ok_iff] at hb
    obtain ⟨c, h1, h2⟩ := hb
    rw [List.mem_cons] at hs
    rcases hs with rfl | hs
    · exact ⟨b, c, h1⟩
    · exact ih h2 hs

theorem request_setAll_mem {b b' : RequestBuilder} {ss : List RequestSetter}
    (hb : b.setAll ss = .ok b') {s : RequestSetter} (hs : s ∈ ss) :
    ∃ c c' : RequestBuilder, c.set s = .ok c' := by
  induction ss generalizing b with
  | nil => cases hs
  | cons t ss ih =>
    rw [RequestBuilder.setAll, bind_ok_iff] at hb
    obtain ⟨c, h1, h2⟩ := hb
    rw [List.mem_cons] at hs
    rcases hs with rfl | hs
    · exact ⟨b, c, h1⟩
    · exact ih h2 hs

/-- An attribute whose setter refuses `None` is unset iff it was unset before and
its setter was not called. -/
theorem lastSet_none_iff {σ α : Type} {sets : σ → Option (Option α)} {calls : List σ}
    {before after : Option α} (h : LastSet sets calls before after)
    (hne : ∀ s ∈ calls, sets s ≠ some none) :
    after = none ↔ before = none ∧ ∀ s ∈ calls, sets s = none := by
  rcases h with ⟨pre, s, post, rfl, h1, -⟩ | ⟨rfl, h1⟩
  · constructor
    · rintro rfl
      exact absurd h1 (hne s (by simp))
    · rintro ⟨-, h2⟩
      rw [h2 s (by simp)] at h1
      cases h1
  · exact ⟨fun h => ⟨h, h1⟩, fun h => h.1⟩

theorem request_lastSet {α : Type} (attr : RequestBuilder → α) (sets : RequestSetter → Option α)
    (h : ∀ b s b', b.set s = .ok b' →
      sets s = some (attr b') ∨ (sets s = none ∧ attr b' = attr b))
    {b b' : RequestBuilder} {ss : List RequestSetter} (hb : b.setAll ss = .ok b') :
    LastSet sets ss (attr b) (attr b') := by
  induction ss generalizing b with
  | nil =>
    rw [RequestBuilder.setAll] at hb
    cases hb
    exact Or.inr ⟨rfl, by simp⟩
  | cons s ss ih =>
    rw [RequestBuilder.setAll, bind_ok_iff] at hb
    obtain ⟨c, h1, h2⟩ := hb
    exact lastSet_cons (h b s c h1) (ih h2)

end WebAuthn
