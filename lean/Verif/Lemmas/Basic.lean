import Verif.Model.Parsers
import Verif.Spec.Data
import Verif.Lemmas.Py
import Verif.Lemmas.Float

/-!
# Basic lemmas: success of Python computations, dictionaries
-/

namespace WebAuthn

/-! ## Projections -/

namespace PyVal

@[simp] theorem asBool?_eq {v : PyVal} {b : Bool} : v.asBool? = some b ↔ v = .bool b := by
  cases v <;> simp [asBool?]
@[simp] theorem asInt?_eq {v : PyVal} {b : Int} : v.asInt? = some b ↔ v = .int b := by
  cases v <;> simp [asInt?]
@[simp] theorem asStr?_eq {v : PyVal} {b : String} : v.asStr? = some b ↔ v = .str b := by
  cases v <;> simp [asStr?]
@[simp] theorem asBytes?_eq {v : PyVal} {b : Bytes} : v.asBytes? = some b ↔ v = .bytes b := by
  cases v <;> simp [asBytes?]
@[simp] theorem asDict?_eq {v : PyVal} {b : Dict} : v.asDict? = some b ↔ v = .dict b := by
  cases v <;> simp [asDict?]
@[simp] theorem asList?_eq {v : PyVal} {b : List PyVal} : v.asList? = some b ↔ v = .list b := by
  cases v <;> simp [asList?]
theorem asSeq?_eq {v : PyVal} {b : List PyVal} :
    v.asSeq? = some b ↔ v = .list b ∨ v = .tuple b := by
  cases v <;> simp [asSeq?]
theorem asKey?_int {v : PyVal} {b : Int} : v.asKey? = some (.int b) ↔ v = .int b := by
  cases v <;> simp [asKey?]
theorem asKey?_str {v : PyVal} {b : String} : v.asKey? = some (.str b) ↔ v = .str b := by
  cases v <;> simp [asKey?]
@[simp] theorem asNum?_eq {v : PyVal} {n : Num} : v.asNum? = some n ↔ v = Spec.numVal n := by
  cases v <;> cases n <;> simp [asNum?, Spec.numVal]
@[simp] theorem isNone_iff {v : PyVal} : v.isNone = true ↔ v = .none := by
  cases v <;> simp [isNone]
@[simp] theorem isNone_false_iff {v : PyVal} : v.isNone = false ↔ v ≠ .none := by
  cases v <;> simp [isNone]

end PyVal

/-! ## Dictionaries -/

theorem eqKey_iff {v : PyVal} {k : Key} : Spec.EqKey v k ↔ v.isKey k = true := by
  constructor
  · intro h; cases h <;> simp_all [PyVal.isKey, PyVal.num?, toInt?_iff]
  · intro h
    cases k with
    | int n =>
      cases v with
      | bool b =>
        cases b <;> simp only [PyVal.isKey, PyVal.num?] at h <;> simp at h <;> subst h
        · exact .false_
        · exact .true_
      | int m => simp [PyVal.isKey, PyVal.num?] at h; subst h; exact .int _
      | float f => simp [PyVal.isKey, PyVal.num?] at h; exact .float _ _ (toInt?_iff.1 h)
      | other i m => simp [PyVal.isKey, PyVal.num?] at h; subst h; exact .other _ _
      | _ => simp [PyVal.isKey, PyVal.num?] at h
    | str s =>
      cases v with
      | str t => simp [PyVal.isKey] at h; subst h; exact .str _
      | _ => simp [PyVal.isKey] at h

theorem eqKey_str_iff {v : PyVal} {s : String} : Spec.EqKey v (.str s) ↔ v = .str s :=
  ⟨fun h => by cases h; rfl, fun h => h ▸ .str s⟩

theorem absent_iff {d : Dict} {k : Key} : Spec.Absent d k ↔ d.get? k = none := by
  induction d with
  | nil => simp [Spec.Absent, Dict.get?]
  | cons kv d ih =>
    obtain ⟨k', v⟩ := kv
    simp only [Spec.Absent, List.forall_mem_cons, Dict.get?] at ih ⊢
    rw [ih, eqKey_iff]
    by_cases h : k'.isKey k = true <;> simp [h]

theorem lookup_iff {d : Dict} {k : Key} {v : PyVal} : Spec.Lookup d k v ↔ d.get? k = some v := by
  induction d with
  | nil => simp [Spec.Lookup, Dict.get?]
  | cons kv d ih =>
    obtain ⟨k', v'⟩ := kv
    simp only [Dict.get?]
    by_cases h : k'.isKey k = true
    · simp only [h, if_true, Option.some.injEq]
      constructor
      · rintro ⟨pre, k2, post, he, hk, hpre⟩
        cases pre with
        | nil => simp at he; exact he.1.2
        | cons p pre =>
          simp at he
          have := hpre p (by simp)
          rw [← he.1] at this
          exact absurd (eqKey_iff.mpr h) this
      · rintro rfl
        exact ⟨[], k', d, rfl, eqKey_iff.mpr h, by simp⟩
    · simp only [h]
      rw [if_neg (by simp), ← ih]
      constructor
      · rintro ⟨pre, k2, post, he, hk, hpre⟩
        cases pre with
        | nil =>
          simp at he
          obtain ⟨⟨rfl, rfl⟩, rfl⟩ := he
          exact absurd (eqKey_iff.mp hk) h
        | cons p pre =>
          simp at he
          obtain ⟨rfl, rfl⟩ := he
          exact ⟨pre, k2, post, rfl, hk, fun kv hkv => hpre kv (by simp [hkv])⟩
      · rintro ⟨pre, k2, post, rfl, hk, hpre⟩
        refine ⟨(k', v') :: pre, k2, post, rfl, hk, ?_⟩
        intro kv hkv
        simp at hkv
        rcases hkv with rfl | hkv
        · exact fun hh => h (eqKey_iff.mp hh)
        · exact hpre kv hkv

theorem lookup_unique {d : Dict} {k : Key} {v w : PyVal} (h : Spec.Lookup d k v)
    (h' : Spec.Lookup d k w) : v = w := by
  rw [lookup_iff] at h h'
  exact Option.some.inj (h.symm.trans h')

theorem get_eq_iff {d : Dict} {k : Key} {v : PyVal} (hv : v ≠ .none) :
    d.get k = v ↔ Spec.Lookup d k v := by
  rw [lookup_iff, Dict.get]
  cases h : d.get? k with
  | none => simp [hv.symm]
  | some w => simp

theorem missing_iff {d : Dict} {k : Key} : Spec.Missing d k ↔ d.get k = .none := by
  rw [Spec.Missing, absent_iff, lookup_iff, Dict.get]
  cases h : d.get? k <;> simp

theorem has_iff {d : Dict} {k : Key} : d.has k = true ↔ ¬ Spec.Absent d k := by
  rw [absent_iff, Dict.has]
  cases d.get? k <;> simp

theorem has_false_iff {d : Dict} {k : Key} : d.has k = false ↔ Spec.Absent d k := by
  rw [absent_iff, Dict.has]
  cases d.get? k <;> simp

theorem keysWithin_iff {d : Dict} {ks : List String} :
    d.keysWithin ks = true ↔ Spec.OnlyKeys d ks := by
  simp only [Dict.keysWithin, Spec.OnlyKeys, List.all_eq_true, List.any_eq_true]
  constructor
  · intro h kv hkv
    obtain ⟨s, hs, hk⟩ := h kv hkv
    exact ⟨s, hs, eqKey_str_iff.mp (eqKey_iff.mpr hk)⟩
  · intro h kv hkv
    obtain ⟨s, hs, hk⟩ := h kv hkv
    exact ⟨s, hs, eqKey_iff.mp (eqKey_str_iff.mpr hk)⟩

/-- With only the listed keys, any other key is absent. -/
theorem absent_of_onlyKeys {d : Dict} {ks : List String} {s : String}
    (h : Spec.OnlyKeys d ks) (hs : s ∉ ks) : Spec.Absent d (.str s) := by
  intro kv hkv hk
  obtain ⟨t, ht, hkt⟩ := h kv hkv
  rw [eqKey_str_iff] at hk
  rw [hk] at hkt
  cases hkt
  exact hs ht

/-! ## Typed members -/

/-- `field` for a projection that inverts the injection `enc`. -/
theorem field_ok_iff {α : Type} {proj : PyVal → Option α} {enc : α → PyVal}
    (hp : ∀ v a, proj v = some a ↔ v = enc a) (hn : ∀ a, enc a ≠ .none)
    {k : Key} {d : Dict} {a : α} :
    field proj k d = .ok a ↔ Spec.Lookup d k (enc a) := by
  rw [← get_eq_iff (hn a), ← hp, field]
  cases hv : proj (d.get k) with
  | none => simp only [raise]; split <;> simp
  | some b =>
    rw [hp] at hv
    have : ¬ (d.get k).isNone = true := by rw [PyVal.isNone_iff, hv]; exact hn b
    simp [this]

theorem fieldOpt_ok_iff {α : Type} {proj : PyVal → Option α} {enc : α → PyVal}
    (hp : ∀ v a, proj v = some a ↔ v = enc a) (hn : ∀ a, enc a ≠ .none)
    {k : Key} {d : Dict} {o : Option α} :
    fieldOpt proj k d = .ok o ↔ Spec.OptMember enc d k o := by
  rw [fieldOpt]
  by_cases hnone : d.get k = .none
  · rw [if_pos (PyVal.isNone_iff.mpr hnone)]
    cases o with
    | none => simp [Spec.OptMember, missing_iff, hnone]
    | some a =>
      simp only [Spec.OptMember, ← get_eq_iff (hn a), hnone]
      simp [(hn a).symm]
  · rw [if_neg (fun h => hnone (PyVal.isNone_iff.mp h))]
    cases hv : proj (d.get k) with
    | none =>
      cases o with
      | none => simp [Spec.OptMember, missing_iff, hnone, raise]
      | some a =>
        simp only [Spec.OptMember, ← get_eq_iff (hn a), ← hp, hv, raise]
        simp
    | some b =>
      cases o with
      | none => simp [Spec.OptMember, missing_iff, hnone]
      | some a =>
        simp only [Spec.OptMember, ← get_eq_iff (hn a), ← hp, hv]
        simp

theorem optTyped_get {α : Type} {proj : PyVal → Option α} {k : Key} {d : Dict} :
    optTyped proj (d.get k) = fieldOpt proj k d := rfl

theorem fieldStr {k : Key} {d : Dict} {s : String} :
    field PyVal.asStr? k d = .ok s ↔ Spec.Lookup d k (.str s) :=
  field_ok_iff (fun _ _ => PyVal.asStr?_eq) (by simp)
theorem fieldBytes {k : Key} {d : Dict} {s : Bytes} :
    field PyVal.asBytes? k d = .ok s ↔ Spec.Lookup d k (.bytes s) :=
  field_ok_iff (fun _ _ => PyVal.asBytes?_eq) (by simp)
theorem fieldDict {k : Key} {d : Dict} {s : Dict} :
    field PyVal.asDict? k d = .ok s ↔ Spec.Lookup d k (.dict s) :=
  field_ok_iff (fun _ _ => PyVal.asDict?_eq) (by simp)
theorem fieldOptStr {k : Key} {d : Dict} {s : Option String} :
    fieldOpt PyVal.asStr? k d = .ok s ↔ Spec.OptMember .str d k s :=
  fieldOpt_ok_iff (fun _ _ => PyVal.asStr?_eq) (by simp)
theorem fieldOptBytes {k : Key} {d : Dict} {s : Option Bytes} :
    fieldOpt PyVal.asBytes? k d = .ok s ↔ Spec.OptMember .bytes d k s :=
  fieldOpt_ok_iff (fun _ _ => PyVal.asBytes?_eq) (by simp)
theorem fieldOptBool {k : Key} {d : Dict} {s : Option Bool} :
    fieldOpt PyVal.asBool? k d = .ok s ↔ Spec.OptMember .bool d k s :=
  fieldOpt_ok_iff (fun _ _ => PyVal.asBool?_eq) (by simp)

/-- The key value (`int` or `str`) as a Python value. -/
def Key.toVal : Key → PyVal
  | .int n => .int n
  | .str s => .str s

theorem asKey?_eq {v : PyVal} {k : Key} : v.asKey? = some k ↔ v = k.toVal := by
  cases k <;> cases v <;> simp [PyVal.asKey?, Key.toVal]

theorem fieldKey {k : Key} {d : Dict} {r : Key} :
    field PyVal.asKey? k d = .ok r ↔ Spec.Lookup d k r.toVal :=
  field_ok_iff (fun _ _ => asKey?_eq) (by intro a; cases a <;> simp [Key.toVal])

theorem fieldSeq {k : Key} {d : Dict} {l : List PyVal} :
    field PyVal.asSeq? k d = .ok l ↔ Spec.SeqMember d k l := by
  rw [Spec.SeqMember, ← get_eq_iff (by simp), ← get_eq_iff (by simp), ← PyVal.asSeq?_eq, field]
  cases hv : (d.get k).asSeq? with
  | none => simp only [raise]; split <;> simp
  | some b =>
    have : ¬ (d.get k).isNone = true := by
      rw [PyVal.isNone_iff]; intro h; rw [h] at hv; simp [PyVal.asSeq?] at hv
    simp [this]

theorem fieldOptSeq {k : Key} {d : Dict} {o : Option (List PyVal)} :
    fieldOpt PyVal.asSeq? k d = .ok o ↔
      match o with
      | none => Spec.Missing d k
      | some l => Spec.SeqMember d k l := by
  rw [fieldOpt]
  by_cases hnone : d.get k = .none
  · rw [if_pos (PyVal.isNone_iff.mpr hnone)]
    cases o with
    | none => simp [missing_iff, hnone]
    | some l =>
      simp only [Spec.SeqMember, ← get_eq_iff (v := .list l) (by simp),
        ← get_eq_iff (v := .tuple l) (by simp), hnone]
      simp
  · rw [if_neg (fun h => hnone (PyVal.isNone_iff.mp h))]
    cases o with
    | none => simp only [missing_iff, hnone, raise]; split <;> simp
    | some l =>
      simp only [Spec.SeqMember, ← get_eq_iff (v := .list l) (by simp),
        ← get_eq_iff (v := .tuple l) (by simp), ← PyVal.asSeq?_eq, raise]
      split <;> simp_all

theorem elemTyped_ok_iff {α : Type} {proj : PyVal → Option α} {enc : α → PyVal}
    (hp : ∀ v a, proj v = some a ↔ v = enc a) {v : PyVal} {a : α} :
    elemTyped proj v = .ok a ↔ v = enc a := by
  rw [← hp, elemTyped]
  cases proj v <;> simp [raise]

theorem forall₂_eq_map {α : Type} {enc : α → PyVal} {l : List PyVal} {r : List α} :
    List.Forall₂ (fun v a => v = enc a) l r ↔ l = r.map enc := by
  constructor
  · intro h
    induction h with
    | nil => rfl
    | cons h _ ih => simp [h, ih]
  · rintro rfl
    induction r with
    | nil => exact .nil
    | cons a r ih => exact .cons rfl ih

theorem mapM_elemTyped {α : Type} {proj : PyVal → Option α} {enc : α → PyVal}
    (hp : ∀ v a, proj v = some a ↔ v = enc a) {l : List PyVal} {r : List α} :
    l.mapM (elemTyped proj) = .ok r ↔ l = r.map enc := by
  rw [mapM_ok_iff, ← forall₂_eq_map]
  simp only [elemTyped_ok_iff hp]

/-! ## Enumerations -/

/-- Lookup in the two tables agrees with a code function on the members with `P`. -/
theorem nvCallKey_ok_iff' {α : Type} {names : List (String × α)} {values : List (Int × α)}
    {code : α → Int × String} {P : α → Prop}
    (hv : ∀ n a, values.lookup n = some a ↔ P a ∧ n = (code a).1)
    (hn : ∀ s a, names.lookup s = some a ↔ P a ∧ s = (code a).2)
    {k : Key} {m : NV α} :
    nvCallKey names values k = .ok m ↔ Spec.Denotes code k.toVal m ∧ P m.id := by
  cases k with
  | int n =>
    have : nvCallKey names values (.int n) = .ok m ↔ ∃ a, values.lookup n = some a ∧ m = .value a := by
      simp only [nvCallKey]
      cases values.lookup n <;> simp [eq_comm]
    simp only [this, hv, Spec.Denotes, Key.toVal]
    constructor
    · rintro ⟨a, ⟨h1, h2⟩, rfl⟩; exact ⟨.inl ⟨a, rfl, by rw [h2]⟩, h1⟩
    · rintro ⟨⟨a, rfl, h⟩ | ⟨a, rfl, h⟩, hp⟩
      · cases h; exact ⟨a, ⟨hp, rfl⟩, rfl⟩
      · cases h
  | str n =>
    have : nvCallKey names values (.str n) = .ok m ↔ ∃ a, names.lookup n = some a ∧ m = .name a := by
      simp only [nvCallKey]
      cases names.lookup n <;> simp [eq_comm]
    simp only [this, hn, Spec.Denotes, Key.toVal]
    constructor
    · rintro ⟨a, ⟨h1, h2⟩, rfl⟩; exact ⟨.inr ⟨a, rfl, by rw [h2]⟩, h1⟩
    · rintro ⟨⟨a, rfl, h⟩ | ⟨a, rfl, h⟩, hp⟩
      · cases h
      · cases h; exact ⟨a, ⟨hp, rfl⟩, rfl⟩

theorem nvCallKey_ok_iff {α : Type} {names : List (String × α)} {values : List (Int × α)}
    {code : α → Int × String}
    (hv : ∀ n a, values.lookup n = some a ↔ n = (code a).1)
    (hn : ∀ s a, names.lookup s = some a ↔ s = (code a).2)
    {k : Key} {m : NV α} :
    nvCallKey names values k = .ok m ↔ Spec.Denotes code k.toVal m := by
  rw [nvCallKey_ok_iff' (P := fun _ => True) (by simpa using hv) (by simpa using hn)]
  simp

theorem lookup_map_iff {α κ : Type} [BEq κ] [LawfulBEq κ] {f : α → κ}
    (hf : ∀ a b, f a = f b → a = b) {as : List α} {n : κ} {a : α} :
    (as.map fun a => (f a, a)).lookup n = some a ↔ a ∈ as ∧ n = f a := by
  induction as with
  | nil => simp
  | cons b as ih =>
    simp only [List.map_cons, List.lookup_cons, List.mem_cons]
    by_cases h : n = f b
    · subst h
      simp only [BEq.rfl, Option.some.injEq]
      constructor
      · rintro rfl; exact ⟨.inl rfl, rfl⟩
      · rintro ⟨_, h⟩; exact hf _ _ h
    · have : (n == f b) = false := by simp [h]
      simp only [this, ih]
      constructor
      · rintro ⟨h1, h2⟩; exact ⟨.inr h1, h2⟩
      · rintro ⟨h1 | h1, h2⟩
        · subst h1; exact absurd h2 h
        · exact ⟨h1, h2⟩

theorem algCode_inj (a b : Alg) : (Spec.algCode a = Spec.algCode b ∨
    (Spec.algCode a).1 = (Spec.algCode b).1 ∨ (Spec.algCode a).2 = (Spec.algCode b).2) → a = b := by
  cases a <;> cases b <;> simp [Spec.algCode]

theorem ktyCode_inj (a b : KeyType) : (Spec.ktyCode a = Spec.ktyCode b ∨
    (Spec.ktyCode a).1 = (Spec.ktyCode b).1 ∨ (Spec.ktyCode a).2 = (Spec.ktyCode b).2) → a = b := by
  cases a <;> cases b <;> simp [Spec.ktyCode]

theorem opCode_inj (a b : KeyOp) : (Spec.opCode a = Spec.opCode b ∨
    (Spec.opCode a).1 = (Spec.opCode b).1 ∨ (Spec.opCode a).2 = (Spec.opCode b).2) → a = b := by
  cases a <;> cases b <;> simp [Spec.opCode]

theorem crvCode_inj (a b : Curve) : (Spec.crvCode a = Spec.crvCode b ∨
    (Spec.crvCode a).1 = (Spec.crvCode b).1 ∨ (Spec.crvCode a).2 = (Spec.crvCode b).2) → a = b := by
  cases a <;> cases b <;> simp [Spec.crvCode]

theorem alg_call {k : Key} {m : NV Alg} :
    nvCallKey Alg.nameTable Alg.valueTable k = .ok m ↔ Spec.Denotes Spec.algCode k.toVal m := by
  apply nvCallKey_ok_iff
  · intro n a
    rw [show Alg.valueTable = [Alg.ES256, .ES384, .ES512, .EDDSA].map
      (fun a => ((Spec.algCode a).1, a)) from rfl,
      lookup_map_iff (fun a b h => algCode_inj a b (.inr (.inl h)))]
    cases a <;> simp
  · intro n a
    rw [show Alg.nameTable = [Alg.ES256, .ES384, .ES512, .EDDSA].map
      (fun a => ((Spec.algCode a).2, a)) from rfl,
      lookup_map_iff (fun a b h => algCode_inj a b (.inr (.inr h)))]
    cases a <;> simp

theorem kty_call {k : Key} {m : NV KeyType} :
    nvCallKey KeyType.nameTable KeyType.valueTable k = .ok m ↔
      Spec.Denotes Spec.ktyCode k.toVal m := by
  apply nvCallKey_ok_iff
  · intro n a
    rw [show KeyType.valueTable = [KeyType.OKP, .EC2, .SYMMETRIC].map
      (fun a => ((Spec.ktyCode a).1, a)) from rfl,
      lookup_map_iff (fun a b h => ktyCode_inj a b (.inr (.inl h)))]
    cases a <;> simp
  · intro n a
    rw [show KeyType.nameTable = [KeyType.OKP, .EC2, .SYMMETRIC].map
      (fun a => ((Spec.ktyCode a).2, a)) from rfl,
      lookup_map_iff (fun a b h => ktyCode_inj a b (.inr (.inr h)))]
    cases a <;> simp

theorem op_call {k : Key} {m : NV KeyOp} :
    nvCallKey KeyOp.nameTable KeyOp.valueTable k = .ok m ↔
      Spec.Denotes Spec.opCode k.toVal m := by
  apply nvCallKey_ok_iff
  · intro n a
    rw [show KeyOp.valueTable = [KeyOp.SIGN, .VERIFY, .ENCRYPT, .DECRYPT, .WRAP_KEY, .UNWRAP_KEY,
      .DERIVE_KEY, .DERIVE_BITS, .MAC_CREATE, .MAC_VERIFY].map
      (fun a => ((Spec.opCode a).1, a)) from rfl,
      lookup_map_iff (fun a b h => opCode_inj a b (.inr (.inl h)))]
    cases a <;> simp
  · intro n a
    rw [show KeyOp.nameTable = [KeyOp.SIGN, .VERIFY, .ENCRYPT, .DECRYPT, .WRAP_KEY, .UNWRAP_KEY,
      .DERIVE_KEY, .DERIVE_BITS, .MAC_CREATE, .MAC_VERIFY].map
      (fun a => ((Spec.opCode a).2, a)) from rfl,
      lookup_map_iff (fun a b h => opCode_inj a b (.inr (.inr h)))]
    cases a <;> simp

theorem ec2_call {k : Key} {m : NV Curve} :
    nvCallKey Curve.ec2NameTable Curve.ec2ValueTable k = .ok m ↔
      Spec.Denotes Spec.crvCode k.toVal m ∧ Spec.IsEc2Curve m.id := by
  apply nvCallKey_ok_iff'
  · intro n a
    rw [show Curve.ec2ValueTable = [Curve.P_256, .P_384, .P_521].map
      (fun a => ((Spec.crvCode a).1, a)) from rfl,
      lookup_map_iff (fun a b h => crvCode_inj a b (.inr (.inl h)))]
    cases a <;> simp [Spec.IsEc2Curve]
  · intro n a
    rw [show Curve.ec2NameTable = [Curve.P_256, .P_384, .P_521].map
      (fun a => ((Spec.crvCode a).2, a)) from rfl,
      lookup_map_iff (fun a b h => crvCode_inj a b (.inr (.inr h)))]
    cases a <;> simp [Spec.IsEc2Curve]

theorem okp_call {k : Key} {m : NV Curve} :
    nvCallKey Curve.okpNameTable Curve.okpValueTable k = .ok m ↔
      Spec.Denotes Spec.crvCode k.toVal m ∧ Spec.IsOkpCurve m.id := by
  apply nvCallKey_ok_iff'
  · intro n a
    rw [show Curve.okpValueTable = [Curve.ED25519, .ED448].map
      (fun a => ((Spec.crvCode a).1, a)) from rfl,
      lookup_map_iff (fun a b h => crvCode_inj a b (.inr (.inl h)))]
    cases a <;> simp [Spec.IsOkpCurve]
  · intro n a
    rw [show Curve.okpNameTable = [Curve.ED25519, .ED448].map
      (fun a => ((Spec.crvCode a).2, a)) from rfl,
      lookup_map_iff (fun a b h => crvCode_inj a b (.inr (.inr h)))]
    cases a <;> simp [Spec.IsOkpCurve]

/-- `Denotes` on a value of type `int` or `str` only. -/
theorem denotes_key {α : Type} {code : α → Int × String} {v : PyVal} {m : NV α}
    (h : Spec.Denotes code v m) : ∃ k : Key, v = k.toVal := by
  rcases h with ⟨a, _, rfl⟩ | ⟨a, _, rfl⟩
  · exact ⟨.int _, rfl⟩
  · exact ⟨.str _, rfl⟩

/-- A required member that must denote an enumeration member. -/
theorem field_denotes {α : Type} {names : List (String × α)} {values : List (Int × α)}
    {code : α → Int × String} {R : NV α → Prop}
    (hc : ∀ (k : Key) (m : NV α), nvCallKey names values k = .ok m ↔
      Spec.Denotes code k.toVal m ∧ R m) {k : Key} {d : Dict} {p : Exc → Bool} {h : LibErr}
    {m : NV α} :
    (field PyVal.asKey? k d >>= fun raw => catching (nvCallKey names values raw) p h) = .ok m ↔
      (∃ v, Spec.Lookup d k v ∧ Spec.Denotes code v m) ∧ R m := by
  simp only [bind_ok_iff, fieldKey, catching_ok_iff, hc]
  constructor
  · rintro ⟨r, h1, h2, h3⟩; exact ⟨⟨_, h1, h2⟩, h3⟩
  · rintro ⟨⟨v, h1, h2⟩, h3⟩
    obtain ⟨r, rfl⟩ := denotes_key h2
    exact ⟨r, h1, h2, h3⟩

end WebAuthn
