import Verif.Spec.Honest

/-!
# Texts that are JSON
-/

namespace WebAuthn

open Spec Spec.JsonGrammar

theorem padded_self {α : Type} {P : List Char → α → Prop} {t : List Char} {v : α} (h : P t v) :
    Padded P t v := ⟨[], t, [], by simp, by simp [Space], by simp [Space], h⟩

/-- A string, written character by character. -/
theorem isString_of {q : Char → List Char} (hq : ∀ c, IsChar (q c) c) (s : String) :
    IsString ('"' :: s.toList.flatMap q ++ ['"']) s := by
  refine ⟨s.toList.flatMap q, rfl, ?_⟩
  induction s.toList with
  | nil => exact .nil
  | cons c cs ih => exact .cons _ _ _ _ (hq c) ih

theorem isValue_scalar {n : Nat} {t : List Char} {v : PyVal} (h : IsScalar t v) : IsValue n t v := by
  cases n with
  | zero => exact h
  | succ n => exact Or.inl h

theorem isValue_object {n : Nat} {t : List Char} {ms : List (String × PyVal)}
    (h : IsMembers (IsValue n) t ms) (hd : (ms.map Prod.fst).Nodup) :
    IsValue (n + 1) ('{' :: t) (.dict (dictOf ms)) :=
  Or.inr (Or.inr (Or.inr (Or.inr ⟨t, ms, rfl, h, hd, rfl⟩)))

/-- A member and the ones after it, without white space. -/
theorem isMembers_cons {P : List Char → PyVal → Prop} {k t ts : List Char} {name : String} {v : PyVal}
    {ms : List (String × PyVal)} (hk : IsString k name) (ht : P t v) (h : IsMembers P ts ms) :
    IsMembers P (k ++ ':' :: t ++ ',' :: ts) ((name, v) :: ms) :=
  .cons _ _ _ _ _ _ (padded_self hk) (padded_self ht) h

theorem isMembers_last {P : List Char → PyVal → Prop} {k t : List Char} {name : String} {v : PyVal}
    (hk : IsString k name) (ht : P t v) : IsMembers P (k ++ ':' :: t ++ ['}']) [(name, v)] :=
  .last _ _ _ _ (padded_self hk) (padded_self ht)

theorem jsonText_of {t : List Char} {v : PyVal} (h : IsValue 100 t v) : JsonText (String.ofList t) v := by
  unfold JsonText
  rw [String.toList_ofList]
  exact padded_self h

/-! ## What browsers write as client data -/

theorem hexDigit_spec {n : Nat} (h : n < 16) : HexDigit (hexDigit n) n := by
  have : ∀ n < 16, "0123456789abcdef".toList[n]? = some (hexDigit n) := by decide
  exact Or.inl (this n h)

theorem isChar_code {c a b : Char} (ha : HexDigit a (c.toNat / 16))
    (hb : HexDigit b (c.toNat % 16)) : IsChar ['\\', 'u', '0', '0', a, b] c :=
  .code '0' '0' a b c 0 0 _ _ (Or.inl rfl) (Or.inl rfl) ha hb (by omega)

theorem isChar_ccd (c : Char) : IsChar (ccdChar c) c := by
  unfold ccdChar
  split_ifs with h1 h2 h3
  · subst h1
    exact .escape _ _ (by decide)
  · subst h2
    exact .escape _ _ (by decide)
  · exact isChar_code (hexDigit_spec (by omega)) (hexDigit_spec (by omega))
  · exact .plain c (by omega) h1 h2

theorem isString_ccd (s : String) : IsString (ccdToString s) s := isString_of isChar_ccd s

theorem jsonText_client (type challenge origin : String) :
    JsonText (clientText type challenge origin) (.dict [(.str "type", .str type),
      (.str "challenge", .str challenge), (.str "origin", .str origin),
      (.str "crossOrigin", .bool false)]) := by
  have e : clientText type challenge origin = String.ofList ('{' ::
      (ccdToString "type" ++ ':' :: ccdToString type ++ ',' ::
      (ccdToString "challenge" ++ ':' :: ccdToString challenge ++ ',' ::
      (ccdToString "origin" ++ ':' :: ccdToString origin ++ ',' ::
      (ccdToString "crossOrigin" ++ ':' :: ['f', 'a', 'l', 's', 'e'] ++ ['}']))))) := by
    have e1 : ccdToString "type" = "\"type\"".toList := by decide
    have e2 : ccdToString "challenge" = "\"challenge\"".toList := by decide
    have e3 : ccdToString "origin" = "\"origin\"".toList := by decide
    have e4 : ccdToString "crossOrigin" = "\"crossOrigin\"".toList := by decide
    rw [e1, e2, e3, e4]
    unfold clientText
    simp
  rw [e]
  have s : ∀ x, IsValue 99 (ccdToString x) (.str x) := fun x =>
    isValue_scalar (.str _ _ (isString_ccd x))
  exact jsonText_of (isValue_object (ms := [("type", .str type), ("challenge", .str challenge),
    ("origin", .str origin), ("crossOrigin", .bool false)])
    (isMembers_cons (isString_ccd _) (s _) (isMembers_cons (isString_ccd _) (s _)
      (isMembers_cons (isString_ccd _) (s _)
        (isMembers_last (isString_ccd _) (isValue_scalar .false)))))
    (by simp only [List.map_cons, List.map_nil]; decide))

/-- What browsers write is client data. -/
theorem clientData_client {type challenge origin : String} {cdj : Bytes}
    (h : Utf8 cdj (clientText type challenge origin)) :
    ClientDataText type challenge origin none cdj := by
  have hne : ∀ {a b : String}, a ≠ b → ¬ EqKey (.str a) (.str b) := by
    intro a b h h'
    cases h'
    exact h rfl
  refine ⟨_, _, h, jsonText_client type challenge origin, ?_, ?_, ?_, ?_⟩
  · exact ⟨[], _, _, rfl, .str _, by simp⟩
  · exact ⟨[_], _, _, rfl, .str _, by simp; exact hne (by decide)⟩
  · refine ⟨[_, _], _, _, rfl, .str _, ?_⟩
    simp only [List.mem_cons, List.not_mem_nil, or_false, forall_eq_or_imp, forall_eq]
    exact ⟨hne (by decide), hne (by decide)⟩
  · left
    intro kv hkv
    simp only [List.mem_cons, List.not_mem_nil, or_false] at hkv
    rcases hkv with rfl | rfl | rfl | rfl <;> exact hne (by decide)

end WebAuthn
