import Verif.Lemmas.Base64Text
import Verif.Lemmas.Flask
import Verif.Spec.Page

/-!
# Lemmas about the page of the example application
-/

namespace WebAuthn.Flask.Page

open WebAuthn WebAuthn.Spec WebAuthn.Base64

/-! ## Base64 -/

theorem numbers_map {ns : List Nat} (h : ∀ n ∈ ns, n < 64) : numbers (ns.map encChar) = some ns := by
  induction ns with
  | nil => rfl
  | cons n ns ih =>
    rw [List.map_cons, numbers, (enc_table n (h n (by simp))).1, ih fun m hm => h m (by simp [hm])]

theorem ofNat_toNat {a : UInt8} {n : Nat} (h : n = a.toNat) : UInt8.ofNat n = a := by
  rw [h, UInt8.ofNat_toNat]

theorem quads_sextets (b : Bytes) : quads (sextets b) = b := by
  induction b using sextets.induct with
  | case1 => rfl
  | case2 a =>
    have := a.toNat_lt
    simp only [sextets, quads, List.cons.injEq, and_true]
    exact ofNat_toNat (by omega)
  | case3 a b =>
    have := a.toNat_lt
    have := b.toNat_lt
    simp only [sextets, quads, List.cons.injEq, and_true]
    exact ⟨ofNat_toNat (by omega), ofNat_toNat (by omega)⟩
  | case4 a b c rest ih =>
    have := a.toNat_lt
    have := b.toNat_lt
    have := c.toNat_lt
    simp only [sextets, quads, List.cons.injEq]
    exact ⟨ofNat_toNat (by omega), ofNat_toNat (by omega), ofNat_toNat (by omega), ih⟩

set_option maxRecDepth 8000 in
theorem space_table : ∀ n < 64, isSpace (encChar n) = false := by decide

theorem stripPads_append {l : List Char} {k : Nat} (h : ∀ c ∈ l, c ≠ '=') (hk : k ≤ 2)
    (hl : (l.length + k) % 4 = 0) : stripPads (l ++ List.replicate k '=') = l := by
  unfold stripPads
  rw [if_pos (by simpa using hl)]
  rw [List.reverse_append, List.reverse_replicate]
  have hr : ∀ r, l.reverse ≠ '=' :: r := by
    intro r e
    exact h '=' (List.mem_reverse.mp (by rw [e]; simp)) rfl
  interval_cases k
  · simp only [List.replicate_zero, List.nil_append, List.append_nil]
    split
    · exact absurd ‹_› (hr _)
    · exact absurd ‹_› (hr _)
    · rfl
  · simp only [List.replicate_succ, List.replicate_zero, List.cons_append, List.nil_append]
    exact List.reverse_reverse l
  · simp [List.replicate_succ]

/-- `atob` undoes the encoding. -/
theorem base64decode_encode (b : Bytes) : base64decode (b64encode b) = some b := by
  obtain ⟨pad, hp, he, hl⟩ := b2aPads_eq b
  have hs : ∀ c ∈ b2aData b, isSpace c = false ∧ c ≠ '=' := by
    intro c hc
    rw [b2aData_eq] at hc
    obtain ⟨n, hn, rfl⟩ := List.mem_map.mp hc
    have := sextets_lt b n hn
    exact ⟨space_table n this, (enc_table n this).2.1⟩
  have hlen : (b2aData b).length = (sextets b).length := by rw [b2aData_eq, List.length_map]
  have e : stripPads ((b64encode b).toList.filter fun c => !isSpace c) = b2aData b := by
    rw [b64encode, String.toList_ofList, b2a_eq, he, List.filter_append]
    have e1 : (b2aData b).filter (fun c => !isSpace c) = b2aData b :=
      List.filter_eq_self.mpr fun c hc => by rw [(hs c hc).1]; rfl
    have e2 : (List.replicate pad '=').filter (fun c => !isSpace c) = List.replicate pad '=' :=
      List.filter_eq_self.mpr fun c hc => by rw [List.eq_of_mem_replicate hc]; rfl
    rw [e1, e2]
    exact stripPads_append (fun c hc => (hs c hc).2) hp (by rw [hlen]; exact hl)
  unfold base64decode
  simp only [e]
  rw [hlen, if_neg (by omega), b2aData_eq, numbers_map (sextets_lt b), Option.map_some, quads_sextets]

theorem decode_base64 {b : Bytes} {v : PyVal} (h : IsBase64 b v) :
    ∃ w, decode v = some w ∧ IsBytes b w := by
  obtain ⟨t, rfl, ht⟩ := h
  rw [encodes_std_iff.mp ht]
  exact ⟨.bytes b, by simp [decode, base64decode_encode], rfl⟩

/-! ## Members -/

theorem isKey_str {k : PyVal} {n : String} : k.isKey (.str n) = true ↔ k = .str n := by
  cases k <;> simp [PyVal.isKey]

theorem lookup_mem {d : Dict} {n : String} {v : PyVal} (h : Lookup d (.str n) v) : (.str n, v) ∈ d := by
  obtain ⟨pre, k, post, rfl, hk, -⟩ := h
  cases hk
  simp

theorem mem_lookup {d : Dict} {n : String} {v : PyVal} (hn : (d.map Prod.fst).Nodup)
    (h : (.str n, v) ∈ d) : Lookup d (.str n) v := by
  obtain ⟨pre, post, rfl⟩ := List.append_of_mem h
  refine ⟨pre, _, post, rfl, .str n, fun kv hkv he => ?_⟩
  obtain ⟨k, w⟩ := kv
  cases he
  rw [List.map_append, List.nodup_append] at hn
  exact hn.2.2 _ (List.mem_map_of_mem hkv) _ (by simp) rfl

theorem setIn_ok {n : String} {f : PyVal → Option PyVal} {d : Dict} {v w : PyVal}
    (hn : (d.map Prod.fst).Nodup) (h : (.str n, v) ∈ d) (hf : f v = some w) :
    ∃ d', setIn n f d = some d' ∧ d'.map Prod.fst = d.map Prod.fst ∧
      ∀ k x, (k, x) ∈ d' ↔ k = .str n ∧ x = w ∨ k ≠ .str n ∧ (k, x) ∈ d := by
  induction d with
  | nil => cases h
  | cons kv d ih =>
    obtain ⟨k, x⟩ := kv
    rw [List.map_cons, List.nodup_cons] at hn
    by_cases hk : k = .str n
    · subst hk
      have hx : x = v := by
        rcases List.mem_cons.mp h with e | e
        · exact (Prod.mk.inj e).2.symm
        · exact absurd (List.mem_map_of_mem e) hn.1
      subst hx
      refine ⟨(.str n, w) :: d, by rw [setIn, if_pos (isKey_str.mpr rfl), hf]; rfl, rfl, fun k y => ?_⟩
      have : ∀ y, (.str n, y) ∈ d → False := fun y hy =>
        hn.1 (List.mem_map.mpr ⟨_, hy, rfl⟩)
      simp only [List.mem_cons, Prod.mk.injEq]
      constructor
      · rintro (⟨rfl, rfl⟩ | hm)
        · exact Or.inl ⟨rfl, rfl⟩
        · exact Or.inr ⟨fun e => this y (e ▸ hm), Or.inr hm⟩
      · rintro (⟨rfl, rfl⟩ | ⟨hk, ⟨rfl, -⟩ | hm⟩)
        · exact Or.inl ⟨rfl, rfl⟩
        · exact absurd rfl hk
        · exact Or.inr hm
    · have h' : (.str n, v) ∈ d := by
        rcases List.mem_cons.mp h with e | e
        · exact absurd (Prod.mk.inj e).1.symm hk
        · exact e
      obtain ⟨d', h1, h2, h3⟩ := ih hn.2 h'
      refine ⟨(k, x) :: d', by rw [setIn, if_neg (by rwa [isKey_str]), h1]; rfl, by simp [h2],
        fun k' y => ?_⟩
      simp only [List.mem_cons, Prod.mk.injEq, h3]
      constructor
      · rintro (⟨rfl, rfl⟩ | h | ⟨h4, h5⟩)
        · exact Or.inr ⟨hk, Or.inl ⟨rfl, rfl⟩⟩
        · exact Or.inl h
        · exact Or.inr ⟨h4, Or.inr h5⟩
      · rintro (h | ⟨h4, h | h⟩)
        · exact Or.inr (Or.inl h)
        · exact Or.inl h
        · exact Or.inr (Or.inr ⟨h4, h⟩)

/-- How the condition on a member changes when `f` is applied to the member `n`. -/
def Changes (n : String) (f : PyVal → Option PyVal) (a b : String × Option Check) : Prop :=
  a.1 = b.1 ∧
  match a.2, b.2 with
  | none, none => True
  | some P, some Q =>
    if a.1 = n then ∀ v, P v → ∃ w, f v = some w ∧ Q w else ∀ v, P v → Q v
  | _, _ => False

theorem changes_at {n : String} {f : PyVal → Option PyVal} {P Q : Check}
    (h : ∀ v, P v → ∃ w, f v = some w ∧ Q w) : Changes n f (n, some P) (n, some Q) :=
  ⟨rfl, by simpa using h⟩

theorem changes_off {n m : String} {f : PyVal → Option PyVal} {P Q : Check} (hm : m ≠ n)
    (h : ∀ v, P v → Q v) : Changes n f (m, some P) (m, some Q) := ⟨rfl, by simpa [hm] using h⟩

theorem changes_none {n m : String} {f : PyVal → Option PyVal} : Changes n f (m, none) (m, none) :=
  ⟨rfl, trivial⟩

theorem forall₂_left {α β : Type} {R : α → β → Prop} {l : List α} {m : List β}
    (h : List.Forall₂ R l m) {a : α} (ha : a ∈ l) : ∃ b ∈ m, R a b := by
  induction h with
  | nil => cases ha
  | cons h1 _ ih =>
    rcases List.mem_cons.mp ha with rfl | ha
    · exact ⟨_, by simp, h1⟩
    · obtain ⟨b, hb, hr⟩ := ih ha
      exact ⟨b, by simp [hb], hr⟩

theorem forall₂_right {α β : Type} {R : α → β → Prop} {l : List α} {m : List β}
    (h : List.Forall₂ R l m) {b : β} (hb : b ∈ m) : ∃ a ∈ l, R a b := by
  obtain ⟨a, ha, hr⟩ := forall₂_left h.flip hb
  exact ⟨a, ha, hr⟩

theorem members_setIn {n : String} {f : PyVal → Option PyVal} {fields fields' : List (String × Option Check)}
    {P : Check} (hp : (n, some P) ∈ fields) (hc : List.Forall₂ (Changes n f) fields fields') {d : Dict}
    (h : Members fields (.dict d)) : ∃ d', setIn n f d = some d' ∧ Members fields' (.dict d') := by
  obtain ⟨_, e, hn, h1, h2⟩ := h
  cases e
  obtain ⟨v, hv, -⟩ := h2 n P hp
  have uniq : ∀ x, (.str n, x) ∈ d → x = v := fun x hx =>
    lookup_unique (mem_lookup hn hx) (mem_lookup hn hv)
  obtain ⟨w, hw⟩ : ∃ w, f v = some w := by
    obtain ⟨m, Q, hQ, hm, hQv⟩ := h1 _ _ hv
    obtain rfl : n = m := by simpa using hm
    obtain ⟨⟨m', Q'⟩, -, e, hr⟩ := forall₂_left hc hQ
    cases Q' with
    | none => exact hr.elim
    | some Q' =>
      simp only [if_true] at hr
      obtain ⟨w, hw, -⟩ := hr v hQv
      exact ⟨w, hw⟩
  obtain ⟨d', e1, e2, e3⟩ := setIn_ok hn hv hw
  refine ⟨d', e1, d', rfl, by rwa [e2], fun k j hj => ?_, fun m Q hQ => ?_⟩
  · rcases (e3 k j).mp hj with ⟨rfl, rfl⟩ | ⟨hk, hj⟩
    · obtain ⟨m, Q, hQ, hm, hQv⟩ := h1 _ _ hv
      obtain rfl : n = m := by simpa using hm
      obtain ⟨⟨m', Q'⟩, hm', e, hr⟩ := forall₂_left hc hQ
      cases Q' with
      | none => exact hr.elim
      | some Q' =>
        simp only [if_true] at hr
        obtain ⟨w', hw', hq⟩ := hr v hQv
        rw [hw] at hw'
        cases hw'
        cases e
        exact ⟨n, Q', hm', rfl, hq⟩
    · obtain ⟨m, Q, hQ, rfl, hQv⟩ := h1 _ _ hj
      obtain ⟨⟨m', Q'⟩, hm', e, hr⟩ := forall₂_left hc hQ
      cases Q' with
      | none => exact hr.elim
      | some Q' =>
        simp only at hr
        rw [if_neg (fun e => hk (by rw [e]))] at hr
        cases e
        exact ⟨m, Q', hm', rfl, hr j hQv⟩
  · obtain ⟨⟨m', Q'⟩, hm', e, hr⟩ := forall₂_right hc hQ
    cases e
    cases Q' with
    | none => exact hr.elim
    | some Q' =>
      simp only at hr
      obtain ⟨j, hj, hQj⟩ := h2 m Q' hm'
      by_cases hm : m = n
      · subst hm
        rw [if_pos rfl] at hr
        obtain ⟨w', hw', hq⟩ := hr j hQj
        rw [uniq j hj, hw] at hw'
        cases hw'
        exact ⟨w, (e3 _ _).mpr (Or.inl ⟨rfl, rfl⟩), hq⟩
      · rw [if_neg hm] at hr
        exact ⟨j, (e3 _ _).mpr (Or.inr ⟨by simpa using hm, hj⟩), hr j hQj⟩

theorem members_ifIn {n : String} {f : PyVal → Option PyVal} {fields fields' : List (String × Option Check)}
    {P : Check} (hp : (n, some P) ∈ fields) (hc : List.Forall₂ (Changes n f) fields fields') {d : Dict}
    (h : Members fields (.dict d)) : ∃ d', ifIn n f d = some d' ∧ Members fields' (.dict d') := by
  obtain ⟨d', h1, h2⟩ := members_setIn hp hc h
  refine ⟨d', ?_, h2⟩
  obtain ⟨_, e, hn, -, h3⟩ := h
  cases e
  obtain ⟨v, hv, -⟩ := h3 n P hp
  rw [ifIn, lookup_iff.mp (mem_lookup hn hv)]
  exact h1

theorem within_members {f : Dict → Option Dict} {fields : List (String × Option Check)} {Q : Check}
    (h : ∀ d, Members fields (.dict d) → ∃ d', f d = some d' ∧ Q (.dict d')) {v : PyVal}
    (hv : Members fields v) : ∃ w, within f v = some w ∧ Q w := by
  obtain ⟨d, rfl, hd⟩ := hv
  obtain ⟨d', h1, h2⟩ := h d ⟨d, rfl, hd⟩
  exact ⟨.dict d', by simp [within, h1], h2⟩

theorem each_ok {α : Type} {f : PyVal → Option PyVal} {P Q : α → Check}
    (h : ∀ a v, P a v → ∃ w, f v = some w ∧ Q a w) {l : List α} {vs : List PyVal}
    (hv : List.Forall₂ P l vs) : ∃ ws, each f vs = some ws ∧ List.Forall₂ Q l ws := by
  induction hv with
  | nil => exact ⟨[], rfl, .nil⟩
  | cons h1 _ ih =>
    obtain ⟨ws, h2, h3⟩ := ih
    obtain ⟨w, h4, h5⟩ := h _ _ h1
    exact ⟨w :: ws, by rw [each, h4, h2], .cons h5 h3⟩

theorem members_at {fields : List (String × Option Check)} {d : Dict} {n : String} {v : PyVal}
    (h : Members fields (.dict d)) (hv : Lookup d (.str n) v) : ∃ P, (n, some P) ∈ fields ∧ P v := by
  obtain ⟨_, e, -, h1, -⟩ := h
  cases e
  obtain ⟨m, P, h2, h3, h4⟩ := h1 _ _ (lookup_mem hv)
  obtain rfl : n = m := by simpa using h3
  exact ⟨P, h2, h4⟩

/-! ## The arguments -/

/-- The members of `publicKey` in the creation options of the application. -/
abbrev creationFields (R U C A T S : Check) : List (String × Option Check) :=
  [("rp", some R), ("user", some U), ("challenge", some C), ("pubKeyCredParams", some A),
    ("timeout", some T), ("excludeCredentials", none), ("authenticatorSelection", none),
    ("attestation", some S), ("extensions", none)]

theorem creation_parse {R U C A T S U' C' A' : Check}
    (hU : ∀ v, U v → ∃ w, within (ifIn "id" decode) v = some w ∧ U' w)
    (hC : ∀ v, C v → ∃ w, decode v = some w ∧ C' w) (hA : ∀ v, A v → A' v) {v : PyVal}
    (h : Members [("publicKey", some (Members (creationFields R U C A T S)))] v) :
    ∃ w, parseCreationOptions v = some w ∧
      Members [("publicKey", some (Members (creationFields R U' C' A' T S)))] w := by
  have hk : ∀ v, Members (creationFields R U C A T S) v → ∃ w, within (fun d =>
      (ifIn "challenge" decode d).bind (ifIn "user" (within (ifIn "id" decode)))) v = some w ∧
      Members (creationFields R U' C' A' T S) w := by
    refine fun v hv => within_members (fun d hd => ?_) hv
    obtain ⟨d1, h1, h2⟩ := members_ifIn (n := "challenge") (f := decode) (P := C)
      (fields' := creationFields R U C' A' T S) (by simp)
      (.cons (changes_off (by decide) fun _ h => h) (.cons (changes_off (by decide) fun _ h => h)
        (.cons (changes_at hC) (.cons (changes_off (by decide) hA)
        (.cons (changes_off (by decide) fun _ h => h) (.cons changes_none (.cons changes_none
        (.cons (changes_off (by decide) fun _ h => h) (.cons changes_none .nil))))))))) hd
    obtain ⟨d2, h3, h4⟩ := members_ifIn (n := "user") (f := within (ifIn "id" decode)) (P := U)
      (fields' := creationFields R U' C' A' T S) (by simp)
      (.cons (changes_off (by decide) fun _ h => h) (.cons (changes_at hU)
        (.cons (changes_off (by decide) fun _ h => h) (.cons (changes_off (by decide) fun _ h => h)
        (.cons (changes_off (by decide) fun _ h => h) (.cons changes_none (.cons changes_none
        (.cons (changes_off (by decide) fun _ h => h) (.cons changes_none .nil))))))))) h2
    exact ⟨d2, by rw [h1]; exact h3, h4⟩
  exact within_members (fun d hd => members_setIn (List.mem_singleton.mpr rfl)
    (.cons (changes_at hk) .nil) hd) h

theorem creation_argument {name : String} {handle ch : Bytes} {v : PyVal}
    (h : CreationJson (creationFor { name := name, id := handle, displayName := name } ch) v) :
    ∃ w, parseCreationOptions v = some w ∧ CreationArgument name handle ch w := by
  refine creation_parse (R := RpJson rp) (C := IsBase64 ch) (T := IsInt 60000) (S := IsText "none")
    (U := Members [("name", some (IsText name)), ("icon", none), ("id", some (IsBase64 handle)),
      ("displayName", some (IsText name))])
    (A := IsArray ParametersJson { items := [⟨.value .ES256⟩] }) ?_ (fun v hv => decode_base64 hv) ?_ h
  · exact fun v hv => within_members (fun d hd => members_ifIn (n := "id") (P := IsBase64 handle)
      (by simp) (.cons (changes_off (by decide) fun _ h => h) (.cons changes_none
        (.cons (changes_at fun v hv => decode_base64 hv)
        (.cons (changes_off (by decide) fun _ h => h) .nil)))) hd) hv
  · rintro v ⟨vs, rfl, hvs⟩
    cases hvs with
    | cons hp hnil =>
      cases hnil
      exact ⟨_, rfl, hp⟩

/-- The members of `publicKey` in the request options of the application. -/
abbrev requestFields (C T R A V : Check) : List (String × Option Check) :=
  [("challenge", some C), ("timeout", some T), ("rpId", some R), ("allowCredentials", some A),
    ("userVerification", some V), ("extensions", none)]

theorem request_parse {M C T R A V C' A' : Check}
    (hC : ∀ v, C v → ∃ w, decode v = some w ∧ C' w)
    (hA : ∀ v, A v → ∃ w, eachOf (within (setIn "id" decode)) v = some w ∧ A' w) {v : PyVal}
    (h : Members [("mediation", some M), ("publicKey", some (Members (requestFields C T R A V)))] v) :
    ∃ w, parseRequestOptions v = some w ∧
      Members [("mediation", some M), ("publicKey", some (Members (requestFields C' T R A' V)))] w := by
  have hk : ∀ v, Members (requestFields C T R A V) v → ∃ w, within (fun d =>
      (ifIn "challenge" decode d).bind
        (ifIn "allowCredentials" (eachOf (within (setIn "id" decode))))) v = some w ∧
      Members (requestFields C' T R A' V) w := by
    refine fun v hv => within_members (fun d hd => ?_) hv
    obtain ⟨d1, h1, h2⟩ := members_ifIn (n := "challenge") (f := decode) (P := C)
      (fields' := requestFields C' T R A V) (by simp)
      (.cons (changes_at hC) (.cons (changes_off (by decide) fun _ h => h)
        (.cons (changes_off (by decide) fun _ h => h) (.cons (changes_off (by decide) fun _ h => h)
        (.cons (changes_off (by decide) fun _ h => h) (.cons changes_none .nil)))))) hd
    obtain ⟨d2, h3, h4⟩ := members_ifIn (n := "allowCredentials")
      (f := eachOf (within (setIn "id" decode))) (P := A)
      (fields' := requestFields C' T R A' V) (by simp)
      (.cons (changes_off (by decide) fun _ h => h) (.cons (changes_off (by decide) fun _ h => h)
        (.cons (changes_off (by decide) fun _ h => h) (.cons (changes_at hA)
        (.cons (changes_off (by decide) fun _ h => h) (.cons changes_none .nil)))))) h2
    exact ⟨d2, by rw [h1]; exact h3, h4⟩
  exact within_members (fun d hd => members_setIn
    (List.mem_cons_of_mem _ (List.mem_singleton.mpr rfl))
    (.cons (changes_off (by decide) fun _ h => h) (.cons (changes_at hk) .nil)) hd) h

theorem request_argument {rows : List CredentialRow} {ch : Bytes} {v : PyVal}
    (h : RequestJson (requestFor rows ch) v) :
    ∃ w, parseRequestOptions v = some w ∧ RequestArgument ch (rows.map (·.id)) w := by
  refine request_parse (M := IsText "optional") (C := IsBase64 ch) (T := IsInt 60000)
    (R := IsText "localhost") (V := IsText "preferred")
    (A := IsArray DescriptorJson { items := rows.map fun c : CredentialRow => { id := c.id } })
    (fun v hv => decode_base64 hv) ?_ h
  rintro v ⟨vs, rfl, hvs⟩
  rw [List.forall₂_map_left_iff] at hvs
  obtain ⟨ws, h5, h6⟩ := each_ok (f := within (setIn "id" decode))
    (P := fun c : CredentialRow => Members [("type", some (IsText "public-key")),
      ("id", some (IsBase64 c.id)), ("transports", none)])
    (Q := fun c : CredentialRow => Members [("type", some (IsText "public-key")),
      ("id", some (IsBytes c.id)), ("transports", none)])
    (fun c v hv => within_members (fun d hd => members_setIn (n := "id") (P := IsBase64 c.id)
      (by simp) (.cons (changes_off (by decide) fun _ h => h)
        (.cons (changes_at fun v hv => decode_base64 hv) (.cons changes_none .nil))) hd) hv) hvs
  exact ⟨.list ws, by simp [eachOf, h5], ws, rfl, List.forall₂_map_left_iff.mpr h6⟩

end WebAuthn.Flask.Page
