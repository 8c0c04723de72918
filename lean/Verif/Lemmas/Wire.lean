import Verif.Lemmas.Keys

/-!
# Extensions, attestation statements, client data: parsers against specification
-/

namespace WebAuthn

open Spec

/-! ## UTF-8 -/

theorem utf8Decode_ok_iff {b : Bytes} {s : String} : utf8Decode b = .ok s ↔ Utf8 b s := by
  unfold utf8Decode Utf8
  constructor
  · intro h
    split at h
    · next t ht =>
      cases h
      unfold String.fromUTF8? at ht
      split at ht
      · next hv =>
        cases ht
        rfl
      · cases ht
    · cases h
  · rintro rfl
    have hv : (s.toUTF8).IsValidUTF8 := by simpa using s.isValidUTF8
    have : String.fromUTF8? s.toUTF8 = some s := by
      unfold String.fromUTF8?
      split
      · next hv =>
        congr 1
      · next hn => exact absurd (by simpa using hv) hn
    simp only [Array.toArray_toList]
    rw [show (ByteArray.mk s.toUTF8.data) = s.toUTF8 from rfl, this]

/-! ## Extensions -/

theorem parseExts_ok_iff {d : Dict} {o : Option (List String)} :
    parseExts (d.get (.str "exts")) = .ok o ↔ (match o with
      | none => Missing d (.str "exts")
      | some l => SeqMember d (.str "exts") (l.map .str)) := by
  have : parseExts (d.get (.str "exts")) =
      (fieldOpt PyVal.asSeq? (.str "exts") d >>= fun x => match x with
        | none => .ok none
        | some l => do return some (← l.mapM (elemTyped PyVal.asStr?))) := by
    unfold parseExts fieldOpt
    cases (d.get (.str "exts")).isNone
    · cases (d.get (.str "exts")).asSeq? <;> rfl
    · rfl
  rw [this]
  simp only [bind_ok_iff, fieldOptSeq]
  constructor
  · rintro ⟨x, hx, h⟩
    cases x with
    | none => cases h; exact hx
    | some l =>
      simp only [bind_ok_iff, pure_eq_ok] at h
      obtain ⟨r, hr, he⟩ := h
      cases he
      rw [mapM_elemTyped (enc := .str) (fun _ _ => PyVal.asStr?_eq)] at hr
      subst hr
      exact hx
  · intro h
    cases o with
    | none => exact ⟨none, h, rfl⟩
    | some l =>
      refine ⟨some _, h, ?_⟩
      simp only [bind_ok_iff, pure_eq_ok]
      exact ⟨l, (mapM_elemTyped (enc := .str) (fun _ _ => PyVal.asStr?_eq)).mpr rfl, rfl⟩

theorem parseUvm_ok_iff {d : Dict} {o : Option (List (List Int))} :
    parseUvm (d.get (.str "uvm")) = .ok o ↔
      OptMember (fun l => .list (l.map fun (entry : List Int) => .list (entry.map .int)))
        d (.str "uvm") o := by
  have he : ∀ (v : PyVal) (e : List Int), parseUvmEntry v = .ok e ↔ v = .list (e.map .int) := by
    intro v e
    unfold parseUvmEntry
    cases h : v.asList? with
    | none =>
      simp only [raise_eq, reduceCtorEq, false_iff]
      rintro rfl
      simp [PyVal.asList?] at h
    | some l =>
      rw [PyVal.asList?_eq] at h
      subst h
      simp only [mapM_elemTyped (enc := .int) (fun _ _ => PyVal.asInt?_eq), PyVal.list.injEq]
  have hm : ∀ (l : List PyVal) (r : List (List Int)), l.mapM parseUvmEntry = .ok r ↔
      l = r.map fun entry => .list (entry.map .int) := by
    intro l r
    rw [mapM_ok_iff, ← forall₂_eq_map]
    simp only [he]
  have : parseUvm (d.get (.str "uvm")) =
      (fieldOpt PyVal.asList? (.str "uvm") d >>= fun x => match x with
        | none => .ok none
        | some l => do return some (← l.mapM parseUvmEntry)) := by
    unfold parseUvm fieldOpt
    cases (d.get (.str "uvm")).isNone
    · cases (d.get (.str "uvm")).asList? <;> rfl
    · rfl
  rw [this]
  simp only [bind_ok_iff, fieldOpt_ok_iff (enc := .list) (fun _ _ => PyVal.asList?_eq) (by simp)]
  constructor
  · rintro ⟨x, hx, h⟩
    cases x with
    | none => cases h; exact hx
    | some l =>
      simp only [bind_ok_iff, pure_eq_ok] at h
      obtain ⟨r, hr, he⟩ := h
      cases he
      rw [hm] at hr
      subst hr
      exact hx
  · intro h
    cases o with
    | none => exact ⟨none, h, rfl⟩
    | some l =>
      refine ⟨some _, h, ?_⟩
      simp only [bind_ok_iff, pure_eq_ok]
      exact ⟨l, (hm _ _).mpr rfl, rfl⟩

theorem get?_mem {d : Dict} {k : Key} {v : PyVal} (h : d.get? k = some v) :
    ∃ kv ∈ d, kv.2 = v := by
  obtain ⟨pre, k', post, rfl, _, _⟩ := lookup_iff.mpr h
  exact ⟨(k', v), by simp, rfl⟩

theorem coordinate_iff {d : Dict} (hd : ∀ kv ∈ d, ∃ n, kv.2 = numVal n) {s : String}
    {o : Option Num} : coordinate d s = o ↔ OptMember numVal d (.str s) o := by
  unfold coordinate
  have hn : ∀ n, numVal n ≠ .none := by intro n; cases n <;> simp [numVal]
  cases hg : d.get? (.str s) with
  | none =>
    have hget : d.get (.str s) = .none := by simp [Dict.get, hg]
    cases o with
    | none => simp [OptMember, missing_iff, hget, PyVal.asNum?]
    | some n =>
      simp only [OptMember, ← get_eq_iff (hn n), hget, PyVal.asNum?]
      simp [(hn n).symm]
  | some v =>
    obtain ⟨kv, hkv, rfl⟩ := get?_mem hg
    obtain ⟨n, hkn⟩ := hd kv hkv
    have hget : d.get (.str s) = numVal n := by simp [Dict.get, hg, hkn]
    rw [hget]
    cases o with
    | none =>
      simp only [OptMember, missing_iff, hget]
      cases n <;> simp [PyVal.asNum?, numVal]
    | some m => simp only [OptMember, ← get_eq_iff (hn m), hget, PyVal.asNum?_eq]

theorem parseLoc_ok_iff {d : Dict} {o : Option Coordinates} :
    parseLoc (d.get (.str "loc")) = .ok o ↔ (match o with
      | none => Missing d (.str "loc")
      | some c => ∃ ld, Lookup d (.str "loc") (.dict ld) ∧ LocOf ld c) := by
  have : parseLoc (d.get (.str "loc")) =
      (fieldOpt PyVal.asDict? (.str "loc") d >>= fun x => match x with
        | none => .ok none
        | some d => parseLoc (.dict d)) := by
    unfold fieldOpt
    by_cases h : d.get (.str "loc") = .none
    · simp [h, PyVal.isNone, parseLoc]
    · rw [if_neg (by simpa using h)]
      cases hd : (d.get (.str "loc")).asDict? with
      | none =>
        unfold parseLoc
        rw [if_neg (by simpa using h), hd]
        rfl
      | some ld =>
        rw [PyVal.asDict?_eq] at hd
        rw [hd]
        rfl
  have hall : ∀ ld : Dict, (ld.all fun kv => kv.2.asNum?.isSome) = true ↔
      ∀ kv ∈ ld, ∃ n, kv.2 = numVal n := by
    intro ld
    simp only [List.all_eq_true, Option.isSome_iff_exists, PyVal.asNum?_eq]
  have hdict : ∀ (ld : Dict) (o : Option Coordinates), parseLoc (.dict ld) = .ok o ↔
      ∃ c, o = some c ∧ LocOf ld c := by
    intro ld o
    unfold parseLoc
    simp only [PyVal.isNone, PyVal.asDict?, Bool.false_eq_true, if_false, bind_ok_iff,
      require_ok_iff, pure_eq_ok, Except.ok.injEq, hall, keysWithin_iff]
    constructor
    · rintro ⟨_, h1, _, h2, rfl⟩
      refine ⟨_, rfl, h1, h2, ?_⟩
      exact ⟨(coordinate_iff h1).mp rfl, (coordinate_iff h1).mp rfl, (coordinate_iff h1).mp rfl,
        (coordinate_iff h1).mp rfl, (coordinate_iff h1).mp rfl, (coordinate_iff h1).mp rfl,
        (coordinate_iff h1).mp rfl⟩
    · rintro ⟨c, rfl, h1, h2, a1, a2, a3, a4, a5, a6, a7⟩
      refine ⟨(), h1, (), h2, ?_⟩
      rw [(coordinate_iff h1).mpr a1, (coordinate_iff h1).mpr a2, (coordinate_iff h1).mpr a3,
        (coordinate_iff h1).mpr a4, (coordinate_iff h1).mpr a5, (coordinate_iff h1).mpr a6,
        (coordinate_iff h1).mpr a7]
  rw [this]
  simp only [bind_ok_iff, fieldOpt_ok_iff (enc := .dict) (fun _ _ => PyVal.asDict?_eq) (by simp)]
  constructor
  · rintro ⟨x, hx, h⟩
    cases x with
    | none => cases h; exact hx
    | some ld =>
      obtain ⟨c, rfl, hc⟩ := (hdict _ _).mp h
      exact ⟨ld, hx, hc⟩
  · intro h
    cases o with
    | none => exact ⟨none, h, rfl⟩
    | some c =>
      obtain ⟨ld, h1, h2⟩ := h
      exact ⟨some ld, h1, (hdict _ _).mpr ⟨c, rfl, h2⟩⟩

/-- `parse_extensions` succeeds exactly on extension maps. -/
theorem parseExtensions_ok_iff {d : Dict} {e : Extensions} :
    parseExtensions d = .ok e ↔ ExtensionsOf d e := by
  unfold parseExtensions ExtensionsOf
  simp only [bind_ok_iff, require_ok_iff, keysWithin_iff, optTyped_get, fieldOptBool, fieldOptStr,
    fieldOptBytes, parseExts_ok_iff, parseLoc_ok_iff, parseUvm_ok_iff, pure_eq_ok,
    Except.ok.injEq]
  constructor
  · rintro ⟨_, h0, a1, h1, a2, h2, a3, h3, a4, h4, a5, h5, a6, h6, a7, h7, a8, h8, a9, h9, rfl⟩
    exact ⟨h0, h1, h2, h3, h4, h5, h6, h7, h8, h9⟩
  · rintro ⟨h0, h1, h2, h3, h4, h5, h6, h7, h8, h9⟩
    exact ⟨(), h0, _, h1, _, h2, _, h3, _, h4, _, h5, _, h6, _, h7, _, h8, _, h9, rfl⟩

/-! ## Attestation statements -/

theorem parseStmtAlg_ok_iff {d : Dict} {m : NV Alg} :
    parseStmtAlg d = .ok m ↔ StmtAlg d m := by
  rw [parseStmtAlg, field_denotes (R := fun _ => True) (code := algCode)
    (fun k m => by rw [alg_call]; simp)]
  simp [StmtAlg]

theorem parseStmtX5c_ok_iff {d : Dict} {l : List Bytes} :
    parseStmtX5c d = .ok l ↔ SeqMember d (.str "x5c") (l.map .bytes) := by
  unfold parseStmtX5c
  simp only [bind_ok_iff, fieldSeq, mapM_elemTyped (enc := .bytes) (fun _ _ => PyVal.asBytes?_eq)]
  constructor
  · rintro ⟨_, h, rfl⟩; exact h
  · intro h; exact ⟨_, h, rfl⟩

theorem checkUnsupportedKeys_ok_iff {ks : List String} {d : Dict} {u : Unit} :
    checkUnsupportedKeys ks d = .ok u ↔ OnlyKeys d ks := by
  rw [checkUnsupportedKeys, require_ok_iff, keysWithin_iff]

theorem not_absent_of_lookup {d : Dict} {k : Key} {v : PyVal} (h : Lookup d k v) :
    ¬ Absent d k := by
  rw [absent_iff, lookup_iff.mp h]; simp

theorem not_absent_of_seq {d : Dict} {k : Key} {l : List PyVal} (h : SeqMember d k l) :
    ¬ Absent d k := by
  rcases h with h | h <;> exact not_absent_of_lookup h

theorem parsePackedStmt_ok_iff {d : Dict} {s : AttStmt} :
    parsePackedStmt d = .ok s ↔ AttStmtOf .PACKED d s := by
  unfold parsePackedStmt
  simp only [bind_ok_iff, parseStmtAlg_ok_iff, fieldBytes]
  constructor
  · rintro ⟨alg, ha, sig, hs, h⟩
    split at h
    · simp only [bind_ok_iff, checkUnsupportedKeys_ok_iff, parseStmtX5c_ok_iff, pure_eq_ok,
        Except.ok.injEq] at h
      obtain ⟨_, hk, l, hl, rfl⟩ := h
      exact ⟨rfl, hk, ha, hs, hl⟩
    · split at h
      · simp only [bind_ok_iff, checkUnsupportedKeys_ok_iff, fieldBytes, pure_eq_ok,
          Except.ok.injEq] at h
        obtain ⟨_, hk, l, hl, rfl⟩ := h
        exact ⟨rfl, hk, ha, hs, hl⟩
      · simp only [bind_ok_iff, checkUnsupportedKeys_ok_iff, pure_eq_ok,
          Except.ok.injEq] at h
        obtain ⟨_, hk, rfl⟩ := h
        exact ⟨rfl, hk, ha, hs⟩
  · intro h
    cases s <;> simp only [AttStmtOf, reduceCtorEq, false_and] at h
    · obtain ⟨-, hk, ha, hs⟩ := h
      refine ⟨_, ha, _, hs, ?_⟩
      rw [has_false_iff.mpr (absent_of_onlyKeys hk (by simp)),
        has_false_iff.mpr (absent_of_onlyKeys hk (by simp))]
      simp only [Bool.false_eq_true, if_false, bind_ok_iff, checkUnsupportedKeys_ok_iff]
      exact ⟨(), hk, rfl⟩
    · obtain ⟨-, hk, ha, hs, hx⟩ := h
      refine ⟨_, ha, _, hs, ?_⟩
      rw [has_iff.mpr (not_absent_of_seq hx)]
      simp only [if_true, bind_ok_iff, checkUnsupportedKeys_ok_iff, parseStmtX5c_ok_iff]
      exact ⟨(), hk, _, hx, rfl⟩
    · obtain ⟨-, hk, ha, hs, hx⟩ := h
      refine ⟨_, ha, _, hs, ?_⟩
      rw [has_false_iff.mpr (absent_of_onlyKeys hk (by simp)),
        has_iff.mpr (not_absent_of_lookup hx)]
      simp only [Bool.false_eq_true, if_false, if_true, bind_ok_iff, checkUnsupportedKeys_ok_iff,
        fieldBytes]
      exact ⟨(), hk, _, hx, rfl⟩

theorem parseTpmStmt_ok_iff {d : Dict} {s : AttStmt} :
    parseTpmStmt d = .ok s ↔ AttStmtOf .TPM d s := by
  unfold parseTpmStmt
  simp only [bind_ok_iff, parseStmtAlg_ok_iff, fieldBytes, fieldStr]
  constructor
  · rintro ⟨alg, ha, sig, hs, ver, hv, ci, hci, pa, hpa, h⟩
    split at h
    · simp only [bind_ok_iff, checkUnsupportedKeys_ok_iff, parseStmtX5c_ok_iff, pure_eq_ok,
        Except.ok.injEq] at h
      obtain ⟨_, hk, l, hl, rfl⟩ := h
      exact ⟨rfl, hk, ha, hs, hv, hci, hpa, hl⟩
    · split at h
      · simp only [bind_ok_iff, checkUnsupportedKeys_ok_iff, fieldBytes, pure_eq_ok,
          Except.ok.injEq] at h
        obtain ⟨_, hk, l, hl, rfl⟩ := h
        exact ⟨rfl, hk, ha, hs, hv, hci, hpa, hl⟩
      · simp only [bind_ok_iff, checkUnsupportedKeys_ok_iff, pure_eq_ok,
          Except.ok.injEq] at h
        obtain ⟨_, hk, rfl⟩ := h
        exact ⟨rfl, hk, ha, hs, hv, hci, hpa⟩
  · intro h
    cases s <;> simp only [AttStmtOf, reduceCtorEq, false_and] at h
    · obtain ⟨-, hk, ha, hs, hv, hci, hpa⟩ := h
      refine ⟨_, ha, _, hs, _, hv, _, hci, _, hpa, ?_⟩
      rw [has_false_iff.mpr (absent_of_onlyKeys hk (by simp)),
        has_false_iff.mpr (absent_of_onlyKeys hk (by simp))]
      simp only [Bool.false_eq_true, if_false, bind_ok_iff, checkUnsupportedKeys_ok_iff]
      exact ⟨(), hk, rfl⟩
    · obtain ⟨-, hk, ha, hs, hv, hci, hpa, hx⟩ := h
      refine ⟨_, ha, _, hs, _, hv, _, hci, _, hpa, ?_⟩
      rw [has_iff.mpr (not_absent_of_seq hx)]
      simp only [if_true, bind_ok_iff, checkUnsupportedKeys_ok_iff, parseStmtX5c_ok_iff]
      exact ⟨(), hk, _, hx, rfl⟩
    · obtain ⟨-, hk, ha, hs, hv, hci, hpa, hx⟩ := h
      refine ⟨_, ha, _, hs, _, hv, _, hci, _, hpa, ?_⟩
      rw [has_false_iff.mpr (absent_of_onlyKeys hk (by simp)),
        has_iff.mpr (not_absent_of_lookup hx)]
      simp only [Bool.false_eq_true, if_false, if_true, bind_ok_iff, checkUnsupportedKeys_ok_iff,
        fieldBytes]
      exact ⟨(), hk, _, hx, rfl⟩

theorem parseAndroidKeyStmt_ok_iff {d : Dict} {s : AttStmt} :
    parseAndroidKeyStmt d = .ok s ↔ AttStmtOf .ANDROID_KEY d s := by
  unfold parseAndroidKeyStmt
  simp only [bind_ok_iff, parseStmtAlg_ok_iff, fieldBytes, parseStmtX5c_ok_iff,
    checkUnsupportedKeys_ok_iff, pure_eq_ok, Except.ok.injEq]
  constructor
  · rintro ⟨alg, ha, sig, hs, l, hl, _, hk, rfl⟩
    exact ⟨rfl, hk, ha, hs, hl⟩
  · intro h
    cases s <;> simp only [AttStmtOf, reduceCtorEq, false_and] at h
    obtain ⟨-, hk, ha, hs, hx⟩ := h
    exact ⟨_, ha, _, hs, _, hx, (), hk, rfl⟩

theorem parseSafetyNetStmt_ok_iff {d : Dict} {s : AttStmt} :
    parseSafetyNetStmt d = .ok s ↔ AttStmtOf .ANDROID_SAFETYNET d s := by
  unfold parseSafetyNetStmt
  simp only [bind_ok_iff, fieldBytes, fieldStr, checkUnsupportedKeys_ok_iff, pure_eq_ok,
    Except.ok.injEq]
  constructor
  · rintro ⟨v, hv, r, hr, _, hk, rfl⟩
    exact ⟨rfl, hk, hv, hr⟩
  · intro h
    cases s <;> simp only [AttStmtOf, reduceCtorEq, false_and] at h
    obtain ⟨-, hk, hv, hr⟩ := h
    exact ⟨_, hv, _, hr, (), hk, rfl⟩

theorem parseFidoU2FStmt_ok_iff {d : Dict} {s : AttStmt} :
    parseFidoU2FStmt d = .ok s ↔ AttStmtOf .FIDO_U2F d s := by
  unfold parseFidoU2FStmt
  simp only [bind_ok_iff, fieldBytes, parseStmtX5c_ok_iff, checkUnsupportedKeys_ok_iff, pure_eq_ok,
    Except.ok.injEq]
  constructor
  · rintro ⟨sig, hs, l, hl, _, hk, rfl⟩
    exact ⟨rfl, hk, hs, hl⟩
  · intro h
    cases s <;> simp only [AttStmtOf, reduceCtorEq, false_and] at h
    obtain ⟨-, hk, hs, hl⟩ := h
    exact ⟨_, hs, _, hl, (), hk, rfl⟩

theorem parseNoneStmt_ok_iff {d : Dict} {s : AttStmt} :
    parseNoneStmt d = .ok s ↔ AttStmtOf .NONE d s := by
  unfold parseNoneStmt
  simp only [bind_ok_iff, checkUnsupportedKeys_ok_iff, pure_eq_ok, Except.ok.injEq]
  have hd : OnlyKeys d [] ↔ d = [] := by
    cases d with
    | nil => simp [OnlyKeys]
    | cons kv d =>
      simp only [OnlyKeys, List.not_mem_nil, false_and, exists_false, reduceCtorEq, iff_false]
      intro h
      exact h kv (by simp)
  rw [hd]
  constructor
  · rintro ⟨_, hk, rfl⟩
    exact ⟨rfl, hk⟩
  · intro h
    cases s <;> simp only [AttStmtOf, reduceCtorEq, false_and] at h
    exact ⟨(), h.2, rfl⟩

/-- Each statement parser succeeds exactly on the statements of its format. -/
theorem parseAttStmt_ok_iff {fmt : Fmt} {d : Dict} {s : AttStmt} :
    parseAttStmt fmt d = .ok s ↔ AttStmtOf fmt d s := by
  cases fmt
  · exact parsePackedStmt_ok_iff
  · exact parseTpmStmt_ok_iff
  · exact parseAndroidKeyStmt_ok_iff
  · exact parseSafetyNetStmt_ok_iff
  · exact parseFidoU2FStmt_ok_iff
  · exact parseNoneStmt_ok_iff

/-! ## Client data -/

theorem get_eq_iff' {d : Dict} {k : Key} {v : PyVal} :
    d.get k = v ↔ Lookup d k v ∨ Absent d k ∧ v = .none := by
  rw [lookup_iff, absent_iff, Dict.get]
  cases h : d.get? k with
  | none => simp [eq_comm]
  | some w => simp

theorem statusCall_ok_iff {v : PyVal} {s : TokenBindingStatus} :
    TokenBindingStatus.call v = .ok s ↔
      s = .SUPPORTED ∧ v = .str "supported" ∨ s = .PRESENT ∧ v = .str "present" := by
  cases v with
  | str t =>
    simp only [TokenBindingStatus.call, PyVal.str.injEq]
    by_cases h1 : t = "supported"
    · subst h1; simp [eq_comm]
    · by_cases h2 : t = "present"
      · subst h2; simp [eq_comm]
      · simp [h1, h2]
  | _ => simp [TokenBindingStatus.call]

theorem parseTokenBinding_ok_iff {d : Dict} {o : Option ClientTokenBinding} :
    parseTokenBinding (d.get (.str "tokenBinding")) = .ok o ↔ TokenBindingMember d o := by
  have hdict : ∀ (td : Dict), parseTokenBinding (.dict td) = .ok o ↔
      ∃ tb : ClientTokenBinding, o = some tb ∧
      (tb.status = .SUPPORTED ∧ Lookup td (.str "status") (.str "supported") ∨
       tb.status = .PRESENT ∧ Lookup td (.str "status") (.str "present") ∧ tb.id ≠ .none) ∧
      (Lookup td (.str "id") tb.id ∨ Absent td (.str "id") ∧ tb.id = .none) := by
    intro td
    unfold parseTokenBinding
    simp only [PyVal.isNone, PyVal.asDict?, Bool.false_eq_true, if_false, bind_ok_iff,
      require_ok_iff, catching_ok_iff, pure_eq_ok, Except.ok.injEq, statusCall_ok_iff,
      ← get_eq_iff', ← get_eq_iff (v := .str "supported") (by simp),
      ← get_eq_iff (v := .str "present") (by simp)]
    constructor
    · rintro ⟨_, h1, st, h2, _, h3, rfl⟩
      refine ⟨_, rfl, ?_, rfl⟩
      rcases h2 with ⟨rfl, h⟩ | ⟨rfl, h⟩
      · exact .inl ⟨rfl, h⟩
      · refine .inr ⟨rfl, h, ?_⟩
        intro hn
        simp only at hn
        rw [hn] at h3
        simp at h3
    · rintro ⟨tb, rfl, h1, h2⟩
      rcases h1 with ⟨hs, h⟩ | ⟨hs, h, hid⟩
      · refine ⟨(), by rw [h]; rfl, .SUPPORTED, .inl ⟨rfl, h⟩, (), by simp, ?_⟩
        rw [h2, ← hs]
      · refine ⟨(), by rw [h]; rfl, .PRESENT, .inr ⟨rfl, h⟩, (), ?_, ?_⟩
        · rw [h2]
          cases ht : tb.id <;> simp_all
        · rw [h2, ← hs]
  by_cases hn : d.get (.str "tokenBinding") = .none
  · have : parseTokenBinding (d.get (.str "tokenBinding")) = .ok none := by
      rw [hn]; rfl
    rw [this]
    cases o with
    | none => simp [TokenBindingMember, missing_iff, hn]
    | some tb =>
      simp only [Except.ok.injEq, reduceCtorEq, TokenBindingMember, false_iff, not_exists]
      rintro td ⟨h, -⟩
      rw [← get_eq_iff (by simp), hn] at h
      cases h
  · cases hd : (d.get (.str "tokenBinding")).asDict? with
    | none =>
      have : parseTokenBinding (d.get (.str "tokenBinding")) = .error (.lib .parser) := by
        unfold parseTokenBinding
        rw [if_neg (by simpa using hn), hd]
        rfl
      rw [this]
      cases o with
      | none => simp [TokenBindingMember, missing_iff, hn]
      | some tb =>
        simp only [reduceCtorEq, TokenBindingMember, false_iff, not_exists]
        rintro td ⟨h, -⟩
        rw [← get_eq_iff (by simp)] at h
        rw [h] at hd
        cases hd
    | some td =>
      rw [PyVal.asDict?_eq] at hd
      rw [hd, hdict]
      constructor
      · rintro ⟨tb, rfl, h⟩
        exact ⟨td, (get_eq_iff (by simp)).mp hd, h⟩
      · intro h
        cases o with
        | none => exact absurd (missing_iff.mp h) hn
        | some tb =>
          obtain ⟨td', h1, h2⟩ := h
          rw [← get_eq_iff (by simp), hd] at h1
          cases h1
          exact ⟨tb, rfl, h2⟩

/-- `parse_client_data` succeeds exactly on client data. -/
theorem parseClientData_ok_iff {env : Env} {b : Bytes} {cd : ClientData} :
    parseClientData env b = .ok cd ↔ ClientDataOf env b cd := by
  unfold parseClientData ClientDataOf ClientJson
  simp only [bind_ok_iff, catching_ok_iff, utf8Decode_ok_iff]
  constructor
  · rintro ⟨v, ⟨t, ht, hj⟩, h⟩
    cases hd : v.asDict? with
    | none => simp [hd, raise] at h
    | some d =>
      rw [hd] at h
      rw [PyVal.asDict?_eq] at hd
      subst hd
      cases h1 : (d.get (.str "type")).asStr? with
      | none => simp [h1, raise] at h
      | some ty =>
        cases h2 : (d.get (.str "challenge")).asStr? with
        | none => simp [h1, h2, raise] at h
        | some ch =>
          cases h3 : (d.get (.str "origin")).asStr? with
          | none => simp [h1, h2, h3, raise] at h
          | some og =>
            simp only [h1, h2, h3, bind_ok_iff, pure_eq_ok, Except.ok.injEq,
              parseTokenBinding_ok_iff] at h
            obtain ⟨tb, htb, rfl⟩ := h
            rw [PyVal.asStr?_eq, get_eq_iff (by simp)] at h1 h2 h3
            exact ⟨d, ⟨t, ht, hj⟩, h1, h2, h3, htb⟩
  · rintro ⟨d, ⟨t, ht, hj⟩, h1, h2, h3, htb⟩
    refine ⟨.dict d, ⟨t, ht, hj⟩, ?_⟩
    rw [← get_eq_iff (by simp)] at h1 h2 h3
    simp only [PyVal.asDict?, h1, h2, h3, PyVal.asStr?, bind_ok_iff, parseTokenBinding_ok_iff]
    exact ⟨_, htb, rfl⟩

end WebAuthn
