import Verif.Codec.Der
import Verif.Spec.KeyAttestation
import Verif.Spec.Attestation

/-!
# The schema of `asn1.py` is the documented one
-/

namespace WebAuthn

open WebAuthn.Asn1 WebAuthn.Spec

/-- Tag, name and type. -/
abbrev Entry := Nat × String × Ty

def ofEntries : List Entry → Fields
  | [] => .nil
  | (n, name, ty) :: es => opt name n ty (ofEntries es)

def authEntries : List Entry := [
  (1, "purpose", (.setOf .integer)),
  (2, "algorithm", .integer),
  (3, "keySize", .integer),
  (5, "digest", (.setOf .integer)),
  (6, "padding", (.setOf .integer)),
  (10, "ecCurve", .integer),
  (200, "rsaPublicExponent", .integer),
  (303, "rollbackResistance", .null),
  (400, "activeDateTime", .integer),
  (401, "originationExpireDateTime", .integer),
  (402, "usageExpireDateTime", .integer),
  (503, "noAuthRequired", .null),
  (504, "userAuthType", .integer),
  (505, "authTimeout", .integer),
  (506, "allowWhileOnBody", .null),
  (507, "trustedUserPresenceRequired", .null),
  (508, "trustedConfirmationRequired", .null),
  (509, "unlockedDeviceRequired", .null),
  (600, "allApplications", .null),
  (601, "applicationId", .octetString),
  (701, "creationDateTime", .integer),
  (702, "origin", .integer),
  (703, "rollbackResistant", .null),
  (704, "rootOfTrust", rootOfTrust),
  (705, "osVersion", .integer),
  (706, "osPatchLevel", .integer),
  (709, "attestationApplicationId", .octetString),
  (710, "attestationIdBrand", .octetString),
  (711, "attestationIdDevice", .octetString),
  (712, "attestationIdProduct", .octetString),
  (713, "attestationIdSerial", .octetString),
  (714, "attestationIdImei", .octetString),
  (715, "attestationIdMeid", .octetString),
  (716, "attestationIdManufacturer", .octetString),
  (717, "attestationIdModel", .octetString),
  (718, "vendorPatchLevel", .integer),
  (719, "bootPatchLevel", .integer)]

theorem authorizationList_eq : authorizationList = .sequence (ofEntries authEntries) := rfl

/-- The components have the values of the list, and the names of the tags. -/
def Matches (en : List Entry) : List (String × Val) → AuthList → Prop :=
  List.Forall₂ fun c e => ∃ ty, (e.1, c.1, ty) ∈ en ∧ c.2 = e.2

theorem derFields_ofEntries {en : List Entry} (hen : en.Pairwise fun a b => a.1 < b.1) :
    ∀ {es : AuthList} {parts : List Bytes}, es.Pairwise (fun e e' => e.1 < e'.1) →
    List.Forall₂ (fun e p => ∃ inner name ty, (e.1, name, ty) ∈ en ∧ Der ty e.2 inner ∧
      Tlv 2 true e.1 inner p) es parts →
    ∃ cs, DerFields (ofEntries en) cs parts.flatten ∧ Matches en cs es := by
  induction en with
  | nil =>
    intro es parts _ h
    cases h with
    | nil => exact ⟨[], by simp [ofEntries, DerFields], .nil⟩
    | cons h _ => obtain ⟨_, _, _, h, _⟩ := h; simp at h
  | cons a en ih =>
    obtain ⟨n, name, ty⟩ := a
    rw [List.pairwise_cons] at hen
    intro es parts hes h
    have weaken : ∀ {cs es}, Matches en cs es → Matches ((n, name, ty) :: en) cs es := by
      intro cs es h
      refine h.imp ?_
      rintro c e ⟨ty, h1, h2⟩
      exact ⟨ty, List.mem_cons_of_mem _ h1, h2⟩
    have skip : List.Forall₂ (fun e p => ∃ inner name ty, (e.1, name, ty) ∈ en ∧ Der ty e.2 inner ∧
        Tlv 2 true e.1 inner p) es parts →
        ∃ cs, DerFields (ofEntries ((n, name, ty) :: en)) cs parts.flatten ∧
          Matches ((n, name, ty) :: en) cs es := by
      intro h
      obtain ⟨cs, h1, h2⟩ := ih hen.2 hes h
      refine ⟨cs, ?_, weaken h2⟩
      simp only [ofEntries, opt]
      unfold DerFields
      exact Or.inr ⟨rfl, h1⟩
    cases h with
    | nil => exact skip .nil
    | @cons e p es parts h hs =>
      obtain ⟨inner, name', ty', hm, hd, ht⟩ := h
      rw [List.pairwise_cons] at hes
      have later : ∀ {es : AuthList} {parts : List Bytes}, (∀ e ∈ es, n < e.1) →
          List.Forall₂ (fun e p => ∃ inner name' ty', (e.1, name', ty') ∈ (n, name, ty) :: en ∧
            Der ty' e.2 inner ∧ Tlv 2 true e.1 inner p) es parts →
          List.Forall₂ (fun e p => ∃ inner name ty, (e.1, name, ty) ∈ en ∧ Der ty e.2 inner ∧
            Tlv 2 true e.1 inner p) es parts := by
        intro es parts hlt hs
        induction hs with
        | nil => exact .nil
        | cons h _ ih' =>
          refine .cons ?_ (ih' fun e he => hlt e (List.mem_cons_of_mem _ he))
          obtain ⟨inner, name', ty', hm, hd, ht⟩ := h
          refine ⟨inner, name', ty', ?_, hd, ht⟩
          rcases List.mem_cons.mp hm with hm | hm
          · have h1 := hlt _ (List.mem_cons_self ..)
            have h2 := (Prod.mk.inj hm).1
            omega
          · exact hm
      rcases List.mem_cons.mp hm with hm | hm
      · obtain ⟨h1, h2⟩ := Prod.mk.inj hm
        obtain ⟨rfl, rfl⟩ := Prod.mk.inj h2
        obtain ⟨cs, h3, h4⟩ := ih hen.2 hes.2 (later (fun e' he' => h1 ▸ hes.1 e' he') hs)
        refine ⟨(name', e.2) :: cs, ?_, .cons ⟨ty', ?_, rfl⟩ (weaken h4)⟩
        · simp only [ofEntries, opt, List.flatten_cons]
          unfold DerFields
          exact Or.inl ⟨e.2, cs, p, parts.flatten, inner, rfl, rfl, hd, h1 ▸ ht, h3⟩
        · rw [h1]
          exact List.mem_cons_self ..
      · have h1 : n < e.1 := hen.1 _ hm
        exact skip (.cons ⟨inner, name', ty', hm, hd, ht⟩
          (later (fun e' he' => Nat.lt_trans h1 (hes.1 e' he')) hs))

theorem Matches.mem {en : List Entry} {cs : List (String × Val)} {es : AuthList} (h : Matches en cs es) :
    (∀ c ∈ cs, ∃ e ∈ es, ∃ ty, (e.1, c.1, ty) ∈ en ∧ c.2 = e.2) ∧
    (∀ e ∈ es, ∃ c ∈ cs, ∃ ty, (e.1, c.1, ty) ∈ en ∧ c.2 = e.2) := by
  induction h with
  | nil => simp
  | @cons c e cs es h _ ih =>
    constructor
    · intro c' hc
      rcases List.mem_cons.mp hc with rfl | hc
      · exact ⟨e, List.mem_cons_self .., h⟩
      · obtain ⟨e', he', h'⟩ := ih.1 c' hc
        exact ⟨e', List.mem_cons_of_mem _ he', h'⟩
    · intro e' he
      rcases List.mem_cons.mp he with rfl | he
      · exact ⟨c, List.mem_cons_self .., h⟩
      · obtain ⟨c', hc', h'⟩ := ih.2 e' he
        exact ⟨c', List.mem_cons_of_mem _ hc', h'⟩

theorem mem_of_lookup {α β : Type} [BEq α] [LawfulBEq α] {l : List (α × β)} {a : α} {b : β}
    (h : l.lookup a = some b) : (a, b) ∈ l := by
  induction l with
  | nil => cases h
  | cons p l ih =>
    obtain ⟨a', b'⟩ := p
    rw [List.lookup_cons] at h
    split at h
    · rename_i heq
      cases h
      rw [eq_of_beq heq]
      exact List.mem_cons_self ..
    · exact List.mem_cons_of_mem _ (ih h)

theorem lookup_of_mem {α β : Type} [BEq α] [LawfulBEq α] {l : List (α × β)} {a : α} {b : β}
    (h : (a, b) ∈ l) : ∃ b', l.lookup a = some b' := by
  induction l with
  | nil => simp at h
  | cons p l ih =>
    obtain ⟨a', b'⟩ := p
    rw [List.lookup_cons]
    split
    · exact ⟨_, rfl⟩
    · rename_i hne
      rcases List.mem_cons.mp h with h | h
      · cases h
        simp at hne
      · exact ih h

/-- Tags and names of different entries are different. -/
def Distinct (en : List Entry) : Prop :=
  ∀ t t' n n' ty ty', (t, n, ty) ∈ en → (t', n', ty') ∈ en → (t = t' ↔ n = n')

theorem Matches.lookup_iff {en : List Entry} (hd : Distinct en) {cs : List (String × Val)} {es : AuthList}
    (hes : es.Pairwise fun e e' => e.1 < e'.1) (h : Matches en cs es) {t : Nat} {name : String} {ty : Ty}
    (hm : (t, name, ty) ∈ en) (v : Val) : cs.lookup name = some v ↔ (t, v) ∈ es := by
  have fwd : ∀ v, cs.lookup name = some v → (t, v) ∈ es := by
    intro v hv
    obtain ⟨e, he, ty', h1, h2⟩ := h.mem.1 _ (mem_of_lookup hv)
    have : e = (t, v) := Prod.ext ((hd _ _ _ _ _ _ h1 hm).mpr rfl) h2.symm
    exact this ▸ he
  refine ⟨fwd v, fun hv => ?_⟩
  obtain ⟨c, hc, ty', h1, h2⟩ := h.mem.2 _ hv
  have hn : c.1 = name := (hd _ _ _ _ _ _ h1 hm).mp rfl
  obtain ⟨v', hv'⟩ := lookup_of_mem (l := cs) (a := name) (b := c.2) (by rw [← hn]; exact hc)
  have h3 := fwd v' hv'
  by_cases hvv : v' = v
  · rw [hv', hvv]
  · rcases List.pairwise_iff_getElem.mp hes with hp
    obtain ⟨i, hi, hi'⟩ := List.mem_iff_getElem.mp hv
    obtain ⟨j, hj, hj'⟩ := List.mem_iff_getElem.mp h3
    rcases Nat.lt_trichotomy i j with hij | hij | hij
    · have := hp i j hi hj hij
      rw [hi', hj'] at this
      exact absurd this (Nat.lt_irrefl _)
    · subst hij
      rw [hi'] at hj'
      exact absurd (Prod.mk.inj hj').2.symm hvv
    · have := hp j i hj hi hij
      rw [hi', hj'] at this
      exact absurd this (Nat.lt_irrefl _)

theorem Matches.unique {en : List Entry} (hd : Distinct en) {cs : List (String × Val)} {es es' : AuthList}
    (h : Matches en cs es) (h' : Matches en cs es') : es = es' := by
  induction h generalizing es' with
  | nil => cases h'; rfl
  | @cons c e cs es h _ ih =>
    cases h' with
    | @cons _ e' _ es' h' hs' =>
      obtain ⟨ty, h1, h2⟩ := h
      obtain ⟨ty', h3, h4⟩ := h'
      rw [ih hs', Prod.ext ((hd _ _ _ _ _ _ h1 h3).mpr rfl) (h2.symm.trans h4)]

theorem authEntries_ascending : authEntries.Pairwise fun a b => a.1 < b.1 := by
  have : (authEntries.map (·.1)).Pairwise (· < ·) := by decide
  rwa [List.pairwise_map] at this

theorem inj_of_nodup_map {α β : Type} {f : α → β} {l : List α} (h : (l.map f).Nodup) {a b : α}
    (ha : a ∈ l) (hb : b ∈ l) (hab : f a = f b) : a = b := by
  induction l with
  | nil => simp at ha
  | cons x l ih =>
    rw [List.map_cons, List.nodup_cons] at h
    rcases List.mem_cons.mp ha with ha' | ha' <;> rcases List.mem_cons.mp hb with hb' | hb'
    · rw [ha', hb']
    · rw [ha'] at hab
      exact absurd (hab ▸ List.mem_map_of_mem hb') h.1
    · rw [hb'] at hab
      exact absurd (hab ▸ List.mem_map_of_mem ha') h.1
    · exact ih h.2 ha' hb'

theorem authEntries_distinct : Distinct authEntries := by
  intro t t' n n' ty ty' h h'
  have h1 : (authEntries.map (·.1)).Nodup := by decide
  have h2 : (authEntries.map (·.2.1)).Nodup := by decide
  constructor
  · intro ht
    exact (Prod.mk.inj (Prod.mk.inj (inj_of_nodup_map h1 h h' ht)).2).1
  · intro hn
    exact (Prod.mk.inj (inj_of_nodup_map h2 h h' hn)).1

theorem rootOfTrust_der {v : Val} {b : Bytes} (h : RootOfTrust v b) : Der rootOfTrust v b := by
  obtain ⟨key, locked, state, hash, k, l, s, h, rfl, h1, h2, h3, h4, h5⟩ := h
  unfold rootOfTrust req
  unfold Der
  refine ⟨_, _, rfl, ?_, h5⟩
  unfold DerFields
  refine Or.inl ⟨_, _, k, l ++ s ++ h, k, rfl, by simp, h1, rfl, ?_⟩
  unfold DerFields
  refine Or.inl ⟨_, _, l, s ++ h, l, rfl, by simp, h2, rfl, ?_⟩
  unfold DerFields
  refine Or.inl ⟨_, _, s, h, s, rfl, rfl, h3, rfl, ?_⟩
  unfold DerFields
  refine Or.inl ⟨_, _, h, [], h, rfl, by simp, h4, rfl, ?_⟩
  unfold DerFields
  exact ⟨rfl, rfl⟩

theorem authorization_entry {t : Nat} {v : Val} {b : Bytes} (h : Authorization t v b) :
    ∃ name ty, (t, name, ty) ∈ authEntries ∧ Der ty v b := by
  cases h with
  | integer _ _ _ ht hd =>
    simp only [integerTags, List.mem_cons, List.not_mem_nil, or_false] at ht
    rcases ht with rfl | rfl | rfl | rfl | rfl | rfl | rfl | rfl | rfl | rfl | rfl | rfl | rfl | rfl |
      rfl <;> exact ⟨_, .integer, mem_of_lookup rfl, hd⟩
  | set _ _ _ ht hd =>
    simp only [setTags, List.mem_cons, List.not_mem_nil, or_false] at ht
    rcases ht with rfl | rfl | rfl <;> exact ⟨_, .setOf .integer, mem_of_lookup rfl, hd⟩
  | null _ _ _ ht hd =>
    simp only [nullTags, List.mem_cons, List.not_mem_nil, or_false] at ht
    rcases ht with rfl | rfl | rfl | rfl | rfl | rfl | rfl | rfl <;>
      exact ⟨_, .null, mem_of_lookup rfl, hd⟩
  | octets _ _ _ ht hd =>
    simp only [octetTags, List.mem_cons, List.not_mem_nil, or_false] at ht
    rcases ht with rfl | rfl | rfl | rfl | rfl | rfl | rfl | rfl | rfl | rfl <;>
      exact ⟨_, .octetString, mem_of_lookup rfl, hd⟩
  | rootOfTrust _ _ h => exact ⟨_, rootOfTrust, mem_of_lookup rfl, rootOfTrust_der h⟩

theorem authList_der {es : AuthList} {b : Bytes} (h : AuthListOf es b) :
    ∃ cs, Der authorizationList (.sequence cs) b ∧ Matches authEntries cs es := by
  obtain ⟨h1, parts, h2, h3⟩ := h
  obtain ⟨cs, h4, h5⟩ := derFields_ofEntries authEntries_ascending h1 (h2.imp (by
    rintro e p ⟨inner, ha, ht⟩
    obtain ⟨name, ty, hm, hd⟩ := authorization_entry ha
    exact ⟨inner, name, ty, hm, hd, ht⟩))
  refine ⟨cs, ?_, h5⟩
  rw [authorizationList_eq]
  unfold Der
  exact ⟨cs, _, rfl, h4, h3⟩

/-- The value that is decoded from a key description with these parts. -/
def Represents (d : KeyDesc) (v : Val) : Prop :=
  ∃ sw tee, Matches authEntries sw d.software ∧ Matches authEntries tee d.tee ∧
    v = .sequence [("attestationVersion", .integer d.attestationVersion),
      ("attestationSecurityLevel", .enumerated d.attestationSecurityLevel),
      ("keymasterVersion", .integer d.keymasterVersion),
      ("keymasterSecurityLevel", .enumerated d.keymasterSecurityLevel),
      ("attestationChallenge", .octets d.challenge), ("uniqueId", .octets d.uniqueId),
      ("softwareEnforced", .sequence sw), ("teeEnforced", .sequence tee)]

theorem keyDescription_der {d : KeyDesc} {b : Bytes} (h : KeyDescriptionOf d b) :
    ∃ v, Der keyDescription v b ∧ Represents d v := by
  obtain ⟨b1, b2, b3, b4, b5, b6, b7, b8, h1, h2, h3, h4, h5, h6, h7, h8, h9⟩ := h
  obtain ⟨sw, h7, hsw⟩ := authList_der h7
  obtain ⟨tee, h8, htee⟩ := authList_der h8
  refine ⟨_, ?_, sw, tee, hsw, htee, rfl⟩
  unfold keyDescription req securityLevel
  unfold Der
  refine ⟨_, _, rfl, ?_, h9⟩
  unfold DerFields
  refine Or.inl ⟨_, _, b1, b2 ++ (b3 ++ (b4 ++ (b5 ++ (b6 ++ (b7 ++ b8))))), b1, rfl, by simp, h1, rfl, ?_⟩
  unfold DerFields
  refine Or.inl ⟨_, _, b2, _, b2, rfl, rfl, h2, rfl, ?_⟩
  unfold DerFields
  refine Or.inl ⟨_, _, b3, _, b3, rfl, rfl, h3, rfl, ?_⟩
  unfold DerFields
  refine Or.inl ⟨_, _, b4, _, b4, rfl, rfl, h4, rfl, ?_⟩
  unfold DerFields
  refine Or.inl ⟨_, _, b5, _, b5, rfl, rfl, h5, rfl, ?_⟩
  unfold DerFields
  refine Or.inl ⟨_, _, b6, _, b6, rfl, rfl, h6, rfl, ?_⟩
  unfold DerFields
  refine Or.inl ⟨_, _, b7, b8, b7, rfl, rfl, h7, rfl, ?_⟩
  unfold DerFields
  refine Or.inl ⟨_, _, b8, [], b8, rfl, by simp, h8, rfl, ?_⟩
  unfold DerFields
  exact ⟨rfl, rfl⟩

theorem represents_unique {d d' : KeyDesc} {v : Val} (h : Represents d v) (h' : Represents d' v) :
    d = d' := by
  obtain ⟨sw, tee, h1, h2, rfl⟩ := h
  obtain ⟨sw', tee', h3, h4, h5⟩ := h'
  simp only [Val.sequence.injEq, List.cons.injEq, Prod.mk.injEq, Val.integer.injEq, Val.enumerated.injEq,
    Val.octets.injEq, true_and, and_true] at h5
  obtain ⟨e1, e2, e3, e4, e5, e6, rfl, rfl⟩ := h5
  have e7 := h1.unique authEntries_distinct h3
  have e8 := h2.unique authEntries_distinct h4
  cases d
  cases d'
  simp_all

theorem keyDescriptionOk_iff {d : KeyDesc} {v : Val} (h : Represents d v)
    (hsw : d.software.Pairwise fun e e' => e.1 < e'.1) (htee : d.tee.Pairwise fun e e' => e.1 < e'.1)
    (hash : Bytes) : KeyDescriptionOk v hash ↔ d.Ok hash := by
  obtain ⟨sw, tee, h1, h2, rfl⟩ := h
  have c5 : ∀ w, Component (.sequence [("attestationVersion", .integer d.attestationVersion),
      ("attestationSecurityLevel", .enumerated d.attestationSecurityLevel),
      ("keymasterVersion", .integer d.keymasterVersion),
      ("keymasterSecurityLevel", .enumerated d.keymasterSecurityLevel),
      ("attestationChallenge", .octets d.challenge), ("uniqueId", .octets d.uniqueId),
      ("softwareEnforced", .sequence sw), ("teeEnforced", .sequence tee)]) ["attestationChallenge"] w ↔
      w = .octets d.challenge := by
    intro w
    constructor
    · rintro ⟨cs, u, h, hl, rfl⟩
      cases h
      cases hl
      rfl
    · rintro rfl
      exact ⟨_, _, rfl, rfl, rfl⟩
  have csw : ∀ {t name ty}, (t, name, ty) ∈ authEntries → ∀ w, Component (.sequence [
      ("attestationVersion", .integer d.attestationVersion),
      ("attestationSecurityLevel", .enumerated d.attestationSecurityLevel),
      ("keymasterVersion", .integer d.keymasterVersion),
      ("keymasterSecurityLevel", .enumerated d.keymasterSecurityLevel),
      ("attestationChallenge", .octets d.challenge), ("uniqueId", .octets d.uniqueId),
      ("softwareEnforced", .sequence sw), ("teeEnforced", .sequence tee)])
      ["softwareEnforced", name] w ↔ (t, w) ∈ d.software := by
    intro t name ty hm w
    rw [← h1.lookup_iff authEntries_distinct hsw hm]
    constructor
    · rintro ⟨cs, u, h, hl, cs', u', h', hl', rfl⟩
      cases h
      cases hl
      cases h'
      exact hl'
    · intro h
      exact ⟨_, _, rfl, rfl, _, _, rfl, h, rfl⟩
  have ctee : ∀ {t name ty}, (t, name, ty) ∈ authEntries → ∀ w, Component (.sequence [
      ("attestationVersion", .integer d.attestationVersion),
      ("attestationSecurityLevel", .enumerated d.attestationSecurityLevel),
      ("keymasterVersion", .integer d.keymasterVersion),
      ("keymasterSecurityLevel", .enumerated d.keymasterSecurityLevel),
      ("attestationChallenge", .octets d.challenge), ("uniqueId", .octets d.uniqueId),
      ("softwareEnforced", .sequence sw), ("teeEnforced", .sequence tee)])
      ["teeEnforced", name] w ↔ (t, w) ∈ d.tee := by
    intro t name ty hm w
    rw [← h2.lookup_iff authEntries_distinct htee hm]
    constructor
    · rintro ⟨cs, u, h, hl, cs', u', h', hl', rfl⟩
      cases h
      cases hl
      cases h'
      exact hl'
    · intro h
      exact ⟨_, _, rfl, rfl, _, _, rfl, h, rfl⟩
  have m600 : (600, "allApplications", Ty.null) ∈ authEntries := mem_of_lookup rfl
  have m702 : (702, "origin", Ty.integer) ∈ authEntries := mem_of_lookup rfl
  have m1 : (1, "purpose", Ty.setOf .integer) ∈ authEntries := mem_of_lookup rfl
  simp only [KeyDescriptionOk, KeyDesc.Ok, c5, csw m600, ctee m600, ctee m702, ctee m1, Val.octets.injEq,
    eq_comm]

end WebAuthn
