import Verif.Lemmas.Base64
import Verif.Lemmas.Basic

/-!
# Which exceptions a computation can raise
-/

namespace WebAuthn

open WebAuthn.Spec

/-- Every exception that `m` raises satisfies `P`. -/
def Raises {α : Type} (m : Py α) (P : Exc → Prop) : Prop := ∀ e, m = .error e → P e

variable {α β : Type} {P Q : Exc → Prop}

theorem Raises.mono {m : Py α} (h : Raises m P) (hpq : ∀ e, P e → Q e) : Raises m Q :=
  fun e he => hpq e (h e he)

theorem raises_ok (a : α) : Raises (.ok a : Py α) P := fun _ h => by cases h

theorem raises_pure (a : α) : Raises (pure a : Py α) P := fun _ h => by cases h

theorem raises_error {e : Exc} (h : P e) : Raises (.error e : Py α) P :=
  fun _ he => by cases he; exact h

theorem raises_raise {e : LibErr} (h : P (.lib e)) : Raises (raise e : Py α) P := raises_error h

theorem raises_require {b : Bool} {e : LibErr} (h : P (.lib e)) : Raises (require b e) P := by
  intro x hx
  rw [require_error_iff] at hx
  rw [hx.2]
  exact h

theorem raises_bind {m : Py α} {f : α → Py β} (hm : Raises m P) (hf : ∀ a, Raises (f a) P) :
    Raises (m >>= f) P := by
  intro e he
  rw [bind_error_iff] at he
  rcases he with he | ⟨a, -, he⟩
  · exact hm e he
  · exact hf a e he

theorem raises_catching {m : Py α} {p : Exc → Bool} {h : LibErr} (hh : P (.lib h))
    (hm : Raises m fun e => p e = false → P e) : Raises (catching m p h) P := by
  intro x hx
  rw [catching_error_iff] at hx
  obtain ⟨e, he, h1 | h1⟩ := hx
  · rw [h1.2]; exact hh
  · rw [h1.2]; exact hm e he h1.1

theorem raises_mapM {f : α → Py β} (hf : ∀ a, Raises (f a) P) (l : List α) :
    Raises (l.mapM f) P := by
  induction l with
  | nil => exact raises_pure _
  | cons a l ih =>
    rw [List.mapM_cons]
    exact raises_bind (hf a) fun b => raises_bind ih fun _ => raises_pure _

theorem raises_field {proj : PyVal → Option α} {k : Key} {d : Dict} (h : P (.lib .parser)) :
    Raises (field proj k d) P := by
  unfold field
  split
  · exact raises_raise h
  · split
    · exact raises_ok _
    · exact raises_raise h

theorem raises_fieldOpt {proj : PyVal → Option α} {k : Key} {d : Dict} (h : P (.lib .parser)) :
    Raises (fieldOpt proj k d) P := by
  unfold fieldOpt
  split
  · exact raises_ok _
  · split
    · exact raises_ok _
    · exact raises_raise h

theorem raises_elemTyped {proj : PyVal → Option α} {v : PyVal} (h : P (.lib .parser)) :
    Raises (elemTyped proj v) P := by
  unfold elemTyped
  split
  · exact raises_ok _
  · exact raises_raise h

theorem raises_checkKeys {ks : List String} {d : Dict} (h : P (.lib .parser)) :
    Raises (checkUnsupportedKeys ks d) P := raises_require h

theorem raises_nvCallKey {names : List (String × α)} {values : List (Int × α)} {k : Key} :
    Raises (nvCallKey names values k) fun e => e = .valueError := by
  unfold nvCallKey
  split <;> split <;> first | exact raises_ok _ | exact raises_error rfl

theorem raises_nvCall {names : List (String × α)} {values : List (Int × α)} {v : PyVal} :
    Raises (nvCall names values v) fun e => e = .valueError ∨ e = .keyError := by
  unfold nvCall
  split
  · exact raises_nvCallKey.mono fun e h => Or.inl h
  · exact raises_error (Or.inr rfl)

/-- The enum call with its handler. -/
theorem raises_enum {names : List (String × α)} {values : List (Int × α)} {k : Key}
    (h : P (.lib .parser)) :
    Raises (catching (nvCallKey names values k) isKeyOrValueError .parser) P :=
  raises_catching h (raises_nvCallKey.mono fun e he => by subst he; intro hh; cases hh)

/-! ## The parsers -/

/-- `ParserError`. -/
abbrev IsParser (e : Exc) : Prop := e = .lib .parser

theorem raises_parseKeyKwargs (d : Dict) : Raises (parseKeyKwargs d) IsParser := by
  unfold parseKeyKwargs
  refine raises_bind (raises_bind (raises_field rfl) fun _ => raises_enum rfl) fun _ => ?_
  refine raises_bind (raises_fieldOpt rfl) fun _ => ?_
  refine raises_bind (raises_bind (raises_field rfl) fun _ => raises_enum rfl) fun _ => ?_
  refine raises_bind ?_ fun _ => raises_bind (raises_fieldOpt rfl) fun _ => raises_pure _
  unfold parseKeyOps
  refine raises_bind (raises_fieldOpt rfl) fun o => ?_
  cases o with
  | none => exact raises_pure _
  | some l =>
    refine raises_bind (raises_require rfl) fun _ => raises_bind (raises_mapM (fun v => ?_) l)
      fun _ => raises_pure _
    unfold parseKeyOp
    split
    · exact raises_raise rfl
    · exact raises_enum rfl

theorem raises_parseOkp (d : Dict) : Raises (parseOkpPublicKey d) IsParser := by
  unfold parseOkpPublicKey
  refine raises_bind (raises_field rfl) fun _ => ?_
  refine raises_bind (raises_bind (raises_field rfl) fun _ => raises_enum rfl) fun _ => ?_
  exact raises_bind (raises_require rfl) fun _ => raises_bind (raises_parseKeyKwargs d)
    fun _ => raises_pure _

theorem raises_parseEc2 (d : Dict) : Raises (parseEc2PublicKey d) IsParser := by
  unfold parseEc2PublicKey
  refine raises_bind (raises_field rfl) fun _ => ?_
  refine raises_bind (raises_field rfl) fun _ => ?_
  refine raises_bind (raises_bind (raises_field rfl) fun _ => raises_enum rfl) fun _ => ?_
  exact raises_bind (raises_require rfl) fun _ => raises_bind (raises_parseKeyKwargs d)
    fun _ => raises_pure _

theorem raises_parseCoseKeyDict (d : Dict) : Raises (parseCoseKeyDict d) IsParser := by
  unfold parseCoseKeyDict
  refine raises_bind (raises_catching rfl ?_) fun kt => ?_
  · split
    · exact raises_nvCall.mono fun e he => by rcases he with rfl | rfl <;> (intro h; cases h)
    · exact raises_error (fun h => by cases h)
  · split
    · exact raises_parseOkp d
    · exact raises_parseEc2 d
    · exact raises_raise rfl

theorem raises_parseExtensions (d : Dict) : Raises (parseExtensions d) IsParser := by
  have ht : ∀ {α : Type} (proj : PyVal → Option α) (v : PyVal),
      Raises (optTyped proj v) IsParser := by
    intro α proj v
    unfold optTyped
    split
    · exact raises_ok _
    · split
      · exact raises_ok _
      · exact raises_raise rfl
  unfold parseExtensions
  refine raises_bind (raises_require rfl) fun _ => ?_
  refine raises_bind (ht _ _) fun _ => raises_bind (ht _ _) fun _ => raises_bind (ht _ _) fun _ =>
    raises_bind (ht _ _) fun _ => raises_bind ?_ fun _ => raises_bind (ht _ _) fun _ =>
    raises_bind ?_ fun _ => raises_bind ?_ fun _ => raises_bind (ht _ _) fun _ => raises_pure _
  · unfold parseExts
    split
    · exact raises_ok _
    · split
      · exact raises_raise rfl
      · exact raises_bind (raises_mapM (P := IsParser) (fun _ => raises_elemTyped rfl) _) fun _ => raises_pure _
  · unfold parseLoc
    split
    · exact raises_ok _
    · split
      · exact raises_raise rfl
      · exact raises_bind (raises_require rfl) fun _ => raises_bind (raises_require rfl) fun _ =>
          raises_pure _
  · unfold parseUvm
    split
    · exact raises_ok _
    · split
      · exact raises_raise rfl
      · refine raises_bind (raises_mapM (fun v => ?_) _) fun _ => raises_pure _
        unfold parseUvmEntry
        split
        · exact raises_raise rfl
        · exact raises_mapM (P := IsParser) (fun _ => raises_elemTyped rfl) _

theorem raises_parseAttStmt (fmt : Fmt) (d : Dict) : Raises (parseAttStmt fmt d) IsParser := by
  have halg : Raises (parseStmtAlg d) IsParser :=
    raises_bind (raises_field rfl) fun _ => raises_enum rfl
  have hx : Raises (parseStmtX5c d) IsParser :=
    raises_bind (raises_field rfl) fun l => raises_mapM (P := IsParser) (fun _ => raises_elemTyped rfl) l
  have hb : ∀ k, Raises (field PyVal.asBytes? k d) IsParser := fun _ => raises_field rfl
  have hs : ∀ k, Raises (field PyVal.asStr? k d) IsParser := fun _ => raises_field rfl
  have hk : ∀ ks, Raises (checkUnsupportedKeys ks d) IsParser := fun _ => raises_checkKeys rfl
  cases fmt <;> simp only [parseAttStmt]
  · unfold parsePackedStmt
    refine raises_bind halg fun _ => raises_bind (hb _) fun _ => ?_
    split
    · exact raises_bind (hk _) fun _ => raises_bind hx fun _ => raises_pure _
    · split
      · exact raises_bind (hk _) fun _ => raises_bind (hb _) fun _ => raises_pure _
      · exact raises_bind (hk _) fun _ => raises_pure _
  · unfold parseTpmStmt
    refine raises_bind halg fun _ => raises_bind (hb _) fun _ => raises_bind (hs _) fun _ =>
      raises_bind (hb _) fun _ => raises_bind (hb _) fun _ => ?_
    split
    · exact raises_bind (hk _) fun _ => raises_bind hx fun _ => raises_pure _
    · split
      · exact raises_bind (hk _) fun _ => raises_bind (hb _) fun _ => raises_pure _
      · exact raises_bind (hk _) fun _ => raises_pure _
  · exact raises_bind halg fun _ => raises_bind (hb _) fun _ => raises_bind hx fun _ =>
      raises_bind (hk _) fun _ => raises_pure _
  · exact raises_bind (hs _) fun _ => raises_bind (hb _) fun _ => raises_bind (hk _) fun _ =>
      raises_pure _
  · exact raises_bind (hb _) fun _ => raises_bind hx fun _ => raises_bind (hk _) fun _ =>
      raises_pure _
  · exact raises_bind (hk _) fun _ => raises_pure _

theorem raises_bytesFromBase64 (s : String) :
    Raises (bytesFromBase64 s) fun e => e = .lib .decoding := by
  refine raises_catching rfl fun e he => ?_
  intro h
  have := b64decode_error he
  cases e <;> simp_all [Exc.isException, Exc.isValueError]

theorem raises_parseCredential (d : Dict) :
    Raises (parsePublicKeyCredential d) fun e => e = .lib .parser ∨ e = .lib .decoding := by
  have hf : ∀ {α : Type} (proj : PyVal → Option α) k d,
      Raises (field proj k d) fun e => e = .lib .parser ∨ e = .lib .decoding :=
    fun _ _ _ => raises_field (Or.inl rfl)
  have hd : ∀ s, Raises (bytesFromBase64 s) fun e => e = .lib .parser ∨ e = .lib .decoding :=
    fun s => (raises_bytesFromBase64 s).mono fun _ h => Or.inr h
  have hk : ∀ ks d, Raises (checkUnsupportedKeys ks d)
      fun e => e = .lib .parser ∨ e = .lib .decoding := fun _ _ => raises_checkKeys (Or.inl rfl)
  unfold parsePublicKeyCredential
  refine raises_bind (hk _ _) fun _ => raises_bind (hf _ _ _) fun _ => raises_bind (hf _ _ _)
    fun _ => raises_bind (hf _ _ _) fun _ => raises_bind (hd _) fun _ => raises_bind (hf _ _ _)
    fun _ => raises_bind (hf _ _ _) fun _ => raises_bind (hd _) fun _ => ?_
  split
  · exact raises_bind (hk _ _) fun _ => raises_bind (hf _ _ _) fun _ => raises_bind (hd _)
      fun _ => raises_pure _
  · refine raises_bind (hk _ _) fun _ => raises_bind (hf _ _ _) fun _ => raises_bind (hd _)
      fun _ => raises_bind (hf _ _ _) fun _ => raises_bind (hd _) fun _ =>
      raises_bind (raises_fieldOpt (Or.inl rfl)) fun o => ?_
    cases o with
    | none => exact raises_pure _
    | some s => exact raises_bind (hd _) fun _ => raises_pure _

end WebAuthn
