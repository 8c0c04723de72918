import Verif.Lemmas.Options
import Verif.Lemmas.Credential
import Verif.Lemmas.Base64Text
import Verif.Spec.TypesJson

/-!
# Lemmas about received data in JSON
-/

namespace WebAuthn

open Spec

theorem conv_list {α : Type} {f : α → Obj} {P : α → Check} (l : List α)
    (h : ∀ a ∈ l, Conv (f a) (P a)) : Conv (.list (l.map f)) (IsListOf P l) :=
  conv_seq ⟨.list, l⟩ (by simp [Listed]) h

theorem conv_mono {o : Obj} {P Q : Check} (h : Conv o P) (hPQ : ∀ v, P v → Q v) : Conv o Q :=
  ⟨h.1, h.2.elim fun j hj => ⟨j, hj.1, hPQ j hj.2⟩⟩

theorem members_skip {n : String} {fields : List (String × Option Check)} {v : PyVal}
    (h : Members ((n, none) :: fields) v) : Members fields v := by
  obtain ⟨d, rfl, h1, h2, h3⟩ := h
  refine ⟨d, rfl, h1, fun k j hkj => ?_, fun m P hm => h3 m P (List.mem_cons_of_mem _ hm)⟩
  obtain ⟨m, P, hm, h⟩ := h2 k j hkj
  rw [List.mem_cons] at hm
  rcases hm with hm | hm
  · cases hm
  · exact ⟨m, P, hm, h⟩

theorem field_none {k n : String} (hn : snakeToCamel k = n) : FieldOk (.str k, .none) (n, none) :=
  ⟨k, rfl, hn, Or.inl ⟨rfl, rfl⟩⟩

theorem conv_response (r : Response) : Conv r.toObj (ResponseJson r) := by
  cases r with
  | attestation cdj ob =>
    exact conv_inst (.cons (field_some rfl (conv_bytes _))
      (.cons (field_some rfl (conv_bytes _)) .nil)) (by simp)
  | assertion cdj raw sig handle =>
    exact conv_inst (.cons (field_some rfl (conv_bytes _)) (.cons (field_some rfl (conv_bytes _))
      (.cons (field_some rfl (conv_bytes _)) (.cons (field_opt rfl fun _ _ => conv_bytes _) .nil))))
      (by simp)

theorem conv_credential (c : Credential) : Conv c.toObj (CredentialJson c) :=
  conv_inst (.cons (field_some rfl (conv_str _)) (.cons (field_some rfl (conv_str _))
    (.cons (field_some rfl (conv_bytes _)) (.cons (field_some rfl (conv_response _)) .nil))))
    (by simp)

theorem conv_status (s : TokenBindingStatus) :
    Conv (.enum (.str s.value)) (IsText (statusText s)) := by
  cases s <;> exact conv_enum _

theorem conv_tokenBinding (t : TokenBinding) : Conv t.toObj (TokenBindingJson t) :=
  conv_inst (.cons (field_some rfl (conv_status _)) (.cons (field_opt rfl fun _ _ => conv_str _)
    .nil)) (by simp)

theorem conv_clientData (type challenge origin : String) (tb : Option TokenBinding) :
    Conv (clientDataObj type challenge origin tb) (ClientDataJson type challenge origin tb) :=
  conv_inst (.cons (field_some rfl (conv_str _)) (.cons (field_some rfl (conv_str _))
    (.cons (field_some rfl (conv_str _)) (.cons (field_opt rfl fun _ _ => conv_tokenBinding _)
    .nil)))) (by simp)

theorem conv_enumInt (n : Int) : Conv (.enum (.int n)) (IsInt n) :=
  ⟨nofun, .int n, by rw [jsonify, jsonify], rfl⟩

theorem conv_kty (a : NV KeyType) :
    Conv (enumObj (nvValue KeyType.nameTable KeyType.valueTable a)) (IsKty a) := by
  rcases a with a | a <;> cases a <;> first | exact conv_enum _ | exact conv_enumInt _

theorem conv_keyOp (a : NV KeyOp) :
    Conv (enumObj (nvValue KeyOp.nameTable KeyOp.valueTable a)) (IsKeyOp a) := by
  rcases a with a | a <;> cases a <;> first | exact conv_enum _ | exact conv_enumInt _

theorem conv_curve (a : NV Curve) : Conv (enumObj (curveValue a)) (IsCurve a) := by
  rcases a with a | a <;> cases a <;> first | exact conv_enum _ | exact conv_enumInt _

theorem fields_key (b : KeyBase) : List.Forall₂ FieldOk b.attributes (keyMembers b) :=
  .cons (field_some rfl (conv_kty _)) (.cons (field_opt rfl fun _ _ => conv_bytes _)
    (.cons (field_opt rfl fun _ _ => conv_alg _)
    (.cons (field_opt rfl fun _ _ => conv_list _ fun _ _ => conv_keyOp _)
    (.cons (field_opt rfl fun _ _ => conv_bytes _) .nil))))

theorem forall₂_append {α β : Type} {R : α → β → Prop} {a c : List α} {b d : List β}
    (h : List.Forall₂ R a b) (h' : List.Forall₂ R c d) : List.Forall₂ R (a ++ c) (b ++ d) := by
  induction h with
  | nil => exact h'
  | cons h _ ih => exact .cons h ih

theorem conv_key (k : CPK) : Conv k.toObj (KeyJson k) := by
  cases k with
  | ec2 b x y crv =>
    exact conv_inst (forall₂_append (fields_key b) (.cons (field_some rfl (conv_bytes _))
      (.cons (field_some rfl (conv_bytes _)) (.cons (field_some rfl (conv_curve _)) .nil))))
      (by simp [keyMembers])
  | okp b crv x =>
    exact conv_inst (forall₂_append (fields_key b) (.cons (field_some rfl (conv_curve _))
      (.cons (field_some rfl (conv_bytes _)) .nil))) (by simp [keyMembers])
  | base b => exact conv_inst (fields_key b) (by simp [keyMembers])

theorem conv_attested (a : AttestedCredentialData) : Conv a.toObj (AttestedJson a) :=
  conv_inst (.cons (field_some rfl (conv_bytes _)) (.cons (field_some rfl (conv_int _))
    (.cons (field_some rfl (conv_bytes _)) (.cons (field_opt rfl fun _ _ => conv_key _) .nil))))
    (by simp)

theorem conv_coordinates (c : Coordinates) : Conv c.toObj (CoordinatesJson c) :=
  conv_inst (.cons (field_opt rfl fun _ _ => conv_num _) (.cons (field_opt rfl fun _ _ => conv_num _)
    (.cons (field_opt rfl fun _ _ => conv_num _) (.cons (field_opt rfl fun _ _ => conv_num _)
    (.cons (field_opt rfl fun _ _ => conv_num _) (.cons (field_opt rfl fun _ _ => conv_num _)
    (.cons (field_opt rfl fun _ _ => conv_num _) .nil))))))) (by simp)

theorem conv_outputs (e : Extensions) : Conv e.toObj (OutputsJson e) :=
  conv_inst (.cons (field_opt rfl fun _ _ => conv_bool _) (.cons (field_opt rfl fun _ _ => conv_str _)
    (.cons (field_opt rfl fun _ _ => conv_bytes _) (.cons (field_opt rfl fun _ _ => conv_bool _)
    (.cons (field_opt rfl fun _ _ => conv_list _ fun _ _ => conv_str _)
    (.cons (field_opt rfl fun _ _ => conv_bytes _)
    (.cons (field_opt rfl fun _ _ => conv_coordinates _)
    (.cons (field_opt rfl fun _ _ => conv_list _ fun _ _ => conv_list _ fun _ _ => conv_int _)
    (.cons (field_opt rfl fun _ _ => conv_bool _) .nil))))))))) (by simp)

theorem conv_authData (a : AuthData) : Conv a.toObj (AuthDataJson a) :=
  conv_inst (.cons (field_some rfl (conv_bytes _)) (.cons (field_some rfl (conv_int _))
    (.cons (field_some rfl (conv_int _)) (.cons (field_opt rfl fun _ _ => conv_attested _)
    (.cons (field_opt rfl fun _ _ => conv_outputs _) .nil))))) (by simp)

theorem field_x5c (x5c : List Bytes) :
    FieldOk (.str "x5c", .list (x5c.map .bytes)) ("x5c", some (IsListOf IsBase64 x5c)) :=
  field_some rfl (conv_list _ fun _ _ => conv_bytes _)

theorem conv_stmt (s : AttStmt) : Conv s.toObj (StmtJson s) := by
  have hsig : ∀ b : Bytes, FieldOk (.str "sig", .bytes b) ("sig", some (IsBase64 b)) :=
    fun b => field_some rfl (conv_bytes b)
  have halg : ∀ a : NV Alg, FieldOk (.str "alg", a.algObj) ("alg", some (IsAlg a)) :=
    fun a => field_some rfl (conv_alg a)
  cases s with
  | packed alg sig => exact conv_inst (.cons (halg _) (.cons (hsig _) .nil)) (by simp)
  | packedX509 alg sig x5c =>
    exact conv_inst (.cons (halg _) (.cons (hsig _) (.cons (field_x5c _) .nil))) (by simp)
  | packedECDAA alg sig key =>
    exact conv_inst (.cons (halg _) (.cons (hsig _) (.cons (field_some rfl (conv_bytes _)) .nil)))
      (by simp)
  | tpm alg sig ver info area =>
    exact conv_inst (.cons (halg _) (.cons (hsig _) (.cons (field_some rfl (conv_str _))
      (.cons (field_some rfl (conv_bytes _)) (.cons (field_some rfl (conv_bytes _)) .nil)))))
      (by simp)
  | tpmX509 alg sig ver info area x5c =>
    exact conv_inst (.cons (halg _) (.cons (hsig _) (.cons (field_some rfl (conv_str _))
      (.cons (field_some rfl (conv_bytes _)) (.cons (field_some rfl (conv_bytes _))
      (.cons (field_x5c _) .nil)))))) (by simp)
  | tpmECDAA alg sig ver info area key =>
    exact conv_inst (.cons (halg _) (.cons (hsig _) (.cons (field_some rfl (conv_str _))
      (.cons (field_some rfl (conv_bytes _)) (.cons (field_some rfl (conv_bytes _))
      (.cons (field_some rfl (conv_bytes _)) .nil)))))) (by simp)
  | androidKey alg sig x5c =>
    exact conv_inst (.cons (halg _) (.cons (hsig _) (.cons (field_x5c _) .nil))) (by simp)
  | safetyNet ver response =>
    exact conv_mono (conv_inst (fields := [("alg", none), ("sig", none), ("ver", some (IsText ver)),
      ("response", some (IsBase64 response))]) (.cons (field_none rfl) (.cons (field_none rfl)
      (.cons (field_some rfl (conv_str _)) (.cons (field_some rfl (conv_bytes _)) .nil))))
      (by simp)) fun _ h => members_skip (n := "sig") (members_skip (n := "alg") h)
  | fidoU2F sig x5c =>
    exact conv_mono (conv_inst (fields := [("alg", none), ("sig", some (IsBase64 sig)),
      ("x5c", some (IsListOf IsBase64 x5c))]) (.cons (field_none rfl) (.cons (hsig _) (.cons (field_x5c _) .nil)))
      (by simp)) fun _ h => members_skip (n := "alg") h
  | none =>
    exact conv_mono (conv_inst (fields := [("alg", none), ("sig", none)])
      (.cons (field_none rfl) (.cons (field_none rfl) .nil)) (by simp))
      fun _ h => members_skip (n := "sig") (members_skip (n := "alg") h)

theorem conv_format (f : Fmt) : Conv (.enum (.str f.value)) (IsText (formatText f)) := by
  cases f <;> exact conv_enum _

theorem conv_attestation (o : AttestationObject) : Conv o.toObj (AttestationJson o) :=
  conv_inst (.cons (field_some rfl (conv_authData _)) (.cons (field_some rfl (conv_format _))
    (.cons (field_some rfl (conv_stmt _)) .nil))) (by simp)

/-! ## The way back -/

/-- A member of a JSON object is looked up under its name. -/
theorem members_lookup {fields : List (String × Option Check)} {d : Dict}
    (h : Members fields (.dict d)) {n : String} {P : Check} (hm : (n, some P) ∈ fields) :
    ∃ j, Lookup d (.str n) j ∧ P j := by
  obtain ⟨d', e, hnd, h2, h3⟩ := h
  cases e
  obtain ⟨j, hj, hP⟩ := h3 n P hm
  obtain ⟨pre, post, rfl⟩ := List.append_of_mem hj
  refine ⟨j, ⟨pre, _, post, rfl, .str n, fun kv hkv hk => ?_⟩, hP⟩
  obtain ⟨k, v⟩ := kv
  obtain ⟨m, Q, -, rfl, -⟩ := h2 k v (List.mem_append_left _ hkv)
  cases hk
  rw [List.map_append, List.map_cons, List.nodup_append] at hnd
  exact hnd.2.2 _ (List.mem_map.mpr ⟨_, hkv, rfl⟩) _ (List.mem_cons_self ..) rfl

theorem members_base64 {fields : List (String × Option Check)} {d : Dict}
    (h : Members fields (.dict d)) {n : String} {b : Bytes} (hm : (n, some (IsBase64 b)) ∈ fields) :
    Base64Member d n b := by
  obtain ⟨j, hj, t, rfl, ht⟩ := members_lookup h hm
  refine ⟨t, hj, ?_⟩
  rw [encodes_std_iff] at ht
  rw [← b64decode_ok_iff, ht]
  exact b64decode_b64encode b

theorem members_text {fields : List (String × Option Check)} {d : Dict}
    (h : Members fields (.dict d)) {n : String} {t : String} (hm : (n, some (IsText t)) ∈ fields) :
    Lookup d (.str n) (.str t) := by
  obtain ⟨j, hj, rfl⟩ := members_lookup h hm
  exact hj

theorem members_absent {fields : List (String × Option Check)} {d : Dict}
    (h : Members fields (.dict d)) {n : String} (hm : ∀ P, (n, some P) ∉ fields) :
    Absent d (.str n) := by
  obtain ⟨d', e, -, h2, -⟩ := h
  cases e
  rintro ⟨k, j⟩ hkj hk
  obtain ⟨m, P, hmP, rfl, -⟩ := h2 k j hkj
  cases hk
  exact hm P hmP

theorem members_only {fields : List (String × Option Check)} {d : Dict}
    (h : Members fields (.dict d)) {ks : List String}
    (hk : ∀ n P, (n, some P) ∈ fields → n ∈ ks) : OnlyKeys d ks := by
  obtain ⟨d', e, -, h2, -⟩ := h
  cases e
  rintro ⟨k, j⟩ hkj
  obtain ⟨m, P, hmP, rfl, -⟩ := h2 k j hkj
  exact ⟨m, hk m P hmP, rfl⟩

theorem response_back {r : Response} {d : Dict} (h : ResponseJson r (.dict d)) :
    ResponseOf d r := by
  cases r with
  | attestation cdj ob =>
    refine ⟨members_only h fun n P hm => ?_, members_base64 h (by simp), members_base64 h (by simp)⟩
    simp only [List.mem_cons, Prod.mk.injEq, List.not_mem_nil, or_false] at hm
    rcases hm with ⟨rfl, -⟩ | ⟨rfl, -⟩ <;> simp
  | assertion cdj raw sig handle =>
    refine ⟨members_only h fun n P hm => ?_, members_base64 h (by simp), members_base64 h (by simp),
      members_base64 h (by simp), ?_⟩
    · simp only [List.mem_cons, Prod.mk.injEq, List.not_mem_nil, or_false] at hm
      rcases hm with ⟨rfl, -⟩ | ⟨rfl, -⟩ | ⟨rfl, -⟩ | ⟨rfl, -⟩ <;> simp
    · cases handle with
      | none => exact Or.inl (members_absent h fun P hm => by simp at hm)
      | some b => exact members_base64 h (by simp)

theorem members_dict {fields : List (String × Option Check)} {v : PyVal} (h : Members fields v) :
    ∃ d, v = .dict d := by
  obtain ⟨d, rfl, -⟩ := h
  exact ⟨d, rfl⟩

theorem response_dict {r : Response} {v : PyVal} (h : ResponseJson r v) : ∃ d, v = .dict d := by
  cases r <;> exact members_dict h

theorem credential_back {c : Credential} {d : Dict} (h : CredentialJson c (.dict d)) :
    CredentialOf d c := by
  obtain ⟨j, hj, hr⟩ := members_lookup h (n := "response") (P := ResponseJson c.response) (by simp)
  obtain ⟨rd, rfl⟩ := response_dict hr
  refine ⟨members_only h fun n P hm => ?_, members_text h (by simp), members_text h (by simp),
    members_base64 h (by simp), rd, hj, response_back hr⟩
  simp only [List.mem_cons, Prod.mk.injEq, List.not_mem_nil, or_false] at hm
  rcases hm with ⟨rfl, -⟩ | ⟨rfl, -⟩ | ⟨rfl, -⟩ | ⟨rfl, -⟩ <;> simp

end WebAuthn
