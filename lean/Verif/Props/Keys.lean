import Verif.Spec.Choosy
import Verif.Props.Parse
import Verif.Lemmas.Names
import Verif.Lemmas.Exceptions

/-!
# Keys and names (C27, C39, C44-C46)
-/

namespace WebAuthn.Props

open WebAuthn WebAuthn.Spec

/-! ## COSE encoding -/

/-- `base_IV` is only written next to `key_ops`. -/
def storedBase (b : KeyBase) : KeyBase :=
  { b with baseIV := match b.keyOps with
    | none => none
    | some _ => b.baseIV }

/-- The key as `cose_key` writes it: without `base_IV` when there is no
`key_ops`. -/
def asStored : CPK → CPK
  | .ec2 b x y crv => .ec2 (storedBase b) x y crv
  | .okp b crv x => .okp (storedBase b) crv x
  | .base b => .base b

theorem denotes_kty (m : NV KeyType) :
    Denotes ktyCode (nvValue KeyType.nameTable KeyType.valueTable m) m := by
  rcases m with m | m <;> cases m <;> first | exact Or.inl ⟨_, rfl, rfl⟩ | exact Or.inr ⟨_, rfl, rfl⟩

theorem denotes_alg (m : NV Alg) :
    Denotes algCode (nvValue Alg.nameTable Alg.valueTable m) m := by
  rcases m with m | m <;> cases m <;> first | exact Or.inl ⟨_, rfl, rfl⟩ | exact Or.inr ⟨_, rfl, rfl⟩

theorem denotes_op (m : NV KeyOp) :
    Denotes opCode (nvValue KeyOp.nameTable KeyOp.valueTable m) m := by
  rcases m with m | m <;> cases m <;> first | exact Or.inl ⟨_, rfl, rfl⟩ | exact Or.inr ⟨_, rfl, rfl⟩

theorem denotes_crv (m : NV Curve) : Denotes crvCode (curveValue m) m := by
  rcases m with m | m <;> cases m <;> first | exact Or.inl ⟨_, rfl, rfl⟩ | exact Or.inr ⟨_, rfl, rfl⟩

theorem plain_denotes {α : Type} {code : α → Int × String} {v : PyVal} {m : NV α}
    (h : Denotes code v m) : Plain v := by
  rcases h with ⟨a, -, rfl⟩ | ⟨a, -, rfl⟩
  · exact .int _
  · exact .str _

theorem forall₂_ops (ops : List (NV KeyOp)) :
    List.Forall₂ (Denotes opCode) (ops.map (nvValue KeyOp.nameTable KeyOp.valueTable)) ops := by
  induction ops with
  | nil => exact .nil
  | cons m l ih => exact .cons (denotes_op m) ih

/-- A dictionary with distinct integer keys. -/
theorem plain_intDict {d : Dict} (ks : List Int) (h : d.map Prod.fst = ks.map .int)
    (hn : ks.Nodup) (hv : ∀ kv ∈ d, Plain kv.2) : Plain (.dict d) := by
  refine .dict d (fun kv hkv => ?_) ?_ hv
  · have : kv.1 ∈ d.map Prod.fst := List.mem_map_of_mem hkv
    rw [h] at this
    obtain ⟨n, -, hn⟩ := List.mem_map.mp this
    exact Or.inl ⟨n, hn.symm⟩
  · rw [h]
    exact List.Pairwise.map PyVal.int (fun a b h h' => h (PyVal.int.inj h')) hn

/-- The common members, as written, followed by anything about other keys. -/
theorem baseDict_ok {b : KeyBase} {alg : NV Alg} (ha : b.alg = some alg)
    (hops : b.keyOps ≠ some []) :
    ∃ d, buildBaseCoseDictionary b = .ok d ∧
      (∀ t : Dict, (∀ kv ∈ t, ∃ n : Int, kv.1 = .int n ∧ n < 0) → 
        KeyMembers (d ++ t) (storedBase b)) ∧
      (∀ n : Int, n < 0 → ∀ t : Dict, (d ++ t).get? (.int n) = t.get? (.int n)) ∧
      (∃ ks : List Int, d.map Prod.fst = ks.map .int ∧ ks.Nodup ∧ ∀ k ∈ ks, 0 < k) ∧
      (∀ kv ∈ d, Plain kv.2) := by
  obtain ⟨kty, kid, al, ops, iv⟩ := b
  simp only at ha hops
  subst ha
  have pk := plain_denotes (denotes_kty kty)
  have pa := plain_denotes (denotes_alg alg)
  have po : ∀ l : List (NV KeyOp),
      Plain (.list (l.map (nvValue KeyOp.nameTable KeyOp.valueTable))) := by
    intro l
    refine .list _ fun v hv => ?_
    obtain ⟨m, -, rfl⟩ := List.mem_map.mp hv
    exact plain_denotes (denotes_op m)
  have hneg : ∀ (t : Dict), (∀ kv ∈ t, ∃ n : Int, kv.1 = .int n ∧ n < 0) → ∀ k : Int, 0 < k →
      Dict.get? t (.int k) = none := by
    intro t ht k hk
    rw [← absent_iff]
    intro kv hkv h
    obtain ⟨n, hn, hn'⟩ := ht kv hkv
    rw [hn] at h
    cases h
    omega
  have alg' : ∀ d : Dict, d.get? (.int 3) = some (nvValue Alg.nameTable Alg.valueTable alg) →
      ∃ alg' v, some alg = some alg' ∧ Lookup d (.int 3) v ∧ Denotes algCode v alg' :=
    fun d h => ⟨alg, _, rfl, lookup_iff.mpr h, denotes_alg alg⟩
  have kty' : ∀ d : Dict, d.get? (.int 1) = some (nvValue KeyType.nameTable KeyType.valueTable kty) →
      ∃ v, Lookup d (.int 1) v ∧ Denotes ktyCode v kty :=
    fun d h => ⟨_, lookup_iff.mpr h, denotes_kty kty⟩
  cases kid <;> cases ops <;> cases iv
  all_goals refine ⟨_, rfl, fun t ht => ⟨kty' _ rfl, ?_, alg' _ rfl, ?_, ?_⟩, ?_, ?_, ?_⟩
  all_goals first
    | exact lookup_iff.mpr rfl
    | exact Or.inl (absent_iff.mpr (hneg t ht _ (by decide)))
    | exact Or.inr (lookup_iff.mpr rfl)
    | exact ⟨by simpa using hops, _, Or.inl (lookup_iff.mpr rfl), forall₂_ops _⟩
    | exact ⟨[1, 3], rfl, by decide, by decide⟩
    | exact ⟨[1, 2, 3], rfl, by decide, by decide⟩
    | exact ⟨[1, 3, 4, 5], rfl, by decide, by decide⟩
    | exact ⟨[1, 2, 3, 4, 5], rfl, by decide, by decide⟩
    | (intro kv hkv
       simp only [List.cons_append, List.nil_append, List.mem_cons, List.not_mem_nil,
         or_false] at hkv
       rcases hkv with rfl | rfl | rfl | rfl | rfl <;>
         first | exact pk | exact pa | exact po _ | exact .bytes _ | exact .none)
    | (intro n hn t
       have h1 : n ≠ 1 := by omega
       have h2 : n ≠ 2 := by omega
       have h3 : n ≠ 3 := by omega
       have h4 : n ≠ 4 := by omega
       have h5 : n ≠ 5 := by omega
       simp [Dict.get?, PyVal.isKey, PyVal.num?, h1.symm, h2.symm, h3.symm, h4.symm, h5.symm])

theorem keyMembers_base {d : Dict} {b : KeyBase} (h : KeyMembers d b) :
    (∃ alg, b.alg = some alg) ∧ b.keyOps ≠ some [] := by
  obtain ⟨-, -, ⟨alg, v, ha, -⟩, h4, -⟩ := h
  refine ⟨⟨alg, ha⟩, fun ho => ?_⟩
  rw [ho] at h4
  exact h4.1 rfl

/-- The dictionary that `cose_key` builds denotes the key, up to `base_IV`. -/
theorem coseKeyDict_ok {k : CPK} (hk : ∃ d, CoseKeyOf d k) :
    ∃ d, coseKeyDict k = .ok d ∧ CoseKeyOf d (asStored k) ∧ Plain (.dict d) := by
  obtain ⟨d0, h0⟩ := hk
  cases k with
  | base b => exact absurd h0 id
  | ec2 b x y crv =>
    obtain ⟨hb, h1, -, h3, -, -, h6, h7⟩ := h0
    obtain ⟨⟨alg, ha⟩, hops⟩ := keyMembers_base hb
    obtain ⟨d, hd, hm, hg, ⟨ks, hks, hn, hpos⟩, hv⟩ := baseDict_ok ha hops
    refine ⟨_, by simp only [coseKeyDict, hd]; rfl, ⟨hm _ ?_, h1, ⟨_, lookup_iff.mpr ?_,
      denotes_crv crv⟩, h3, lookup_iff.mpr ?_, lookup_iff.mpr ?_, h6, h7⟩, ?_⟩
    · simp
    · rw [hg _ (by decide)]; rfl
    · rw [hg _ (by decide)]; rfl
    · rw [hg _ (by decide)]; rfl
    · refine plain_intDict (ks ++ [-1, -2, -3]) (by simp [hks]) ?_ ?_
      · rw [List.nodup_append]
        refine ⟨hn, by decide, fun a ha b hb => ?_⟩
        have := hpos a ha
        simp at hb
        omega
      · intro kv hkv
        simp only [List.mem_append, List.mem_cons, List.not_mem_nil, or_false] at hkv
        rcases hkv with h | rfl | rfl | rfl
        · exact hv kv h
        · exact plain_denotes (denotes_crv crv)
        · exact .bytes _
        · exact .bytes _
  | okp b crv x =>
    obtain ⟨hb, h1, -, h3, -, h6⟩ := h0
    obtain ⟨⟨alg, ha⟩, hops⟩ := keyMembers_base hb
    obtain ⟨d, hd, hm, hg, ⟨ks, hks, hn, hpos⟩, hv⟩ := baseDict_ok ha hops
    refine ⟨_, by simp only [coseKeyDict, hd]; rfl, ⟨hm _ ?_, h1, ⟨_, lookup_iff.mpr ?_,
      denotes_crv crv⟩, h3, lookup_iff.mpr ?_, h6⟩, ?_⟩
    · simp
    · rw [hg _ (by decide)]; rfl
    · rw [hg _ (by decide)]; rfl
    · refine plain_intDict (ks ++ [-1, -2]) (by simp [hks]) ?_ ?_
      · rw [List.nodup_append]
        refine ⟨hn, by decide, fun a ha b hb => ?_⟩
        have := hpos a ha
        simp at hb
        omega
      · intro kv hkv
        simp only [List.mem_append, List.mem_cons, List.not_mem_nil, or_false] at hkv
        rcases hkv with h | rfl | rfl
        · exact hv kv h
        · exact plain_denotes (denotes_crv crv)
        · exact .bytes _

/-- What `parse_cose_key (cose_key k)` gives for every key that the parser can
return: the key, without `base_IV` when there is no `key_ops`. -/
theorem C27_stored_key {env : Env} (codec : CodecLaws env) {k : CPK} {b : Bytes}
    (hk : ∃ d, parseCoseKeyDict d = .ok k) (h : coseKey env k = .ok b) :
    parseCoseKeyBytes env b = .ok (asStored k) := by
  obtain ⟨d, hd, hof, hp⟩ := coseKeyDict_ok (hk.imp fun _ => parseCoseKeyDict_ok_iff.mp)
  unfold coseKey at h
  rw [hd] at h
  have := codec.roundTrip hp h []
  rw [List.append_nil] at this
  rw [C28_cose_key_bytes]
  exact ⟨d, [], this, hof⟩

/-- The full statement of C27. -/
def StoredKeysSurvive (env : Env) : Prop :=
  ∀ k b, (∃ d, parseCoseKeyDict d = .ok k) → coseKey env k = .ok b →
    parseCoseKeyBytes env b = .ok k

/-- C27 for the keys that have `key_ops` or no `base_IV`.  Missing: keys with
`base_IV` and without `key_ops`, for which the statement is false
(`C27_stored_keys_survive_refuted`). -/
theorem C27_stored_keys_survive_partial {env : Env} (codec : CodecLaws env) {k : CPK} {b : Bytes}
    (hk : ∃ d, parseCoseKeyDict d = .ok k) (h : coseKey env k = .ok b)
    (hiv : match k with
      | .ec2 b _ _ _ | .okp b _ _ | .base b => b.keyOps = none → b.baseIV = none) :
    parseCoseKeyBytes env b = .ok k := by
  rw [C27_stored_key codec hk h]
  congr 1
  have : ∀ b : KeyBase, (b.keyOps = none → b.baseIV = none) → storedBase b = b := by
    rintro ⟨kty, kid, alg, ops, iv⟩ h
    cases ops with
    | none => simp only [storedBase]; rw [← h rfl]
    | some l => rfl
  cases k with
  | ec2 b x y crv => simp only [asStored]; rw [this b hiv]
  | okp b crv x => simp only [asStored]; rw [this b hiv]
  | base b => rfl

namespace Iv

/-- A valid key map with a Base IV. -/
def map : Dict := Demo.keyMap ++ [(.int 5, .bytes [1, 2, 3])]

def key : CPK :=
  .ec2 { kty := .value .EC2, alg := some (.value .ES256), baseIV := some [1, 2, 3] }
    Demo.x Demo.y (.value .P_256)

theorem parses : parseCoseKeyDict map = .ok key := by rfl

def bytes : Bytes := (coseKey Demo.env key).toOption.getD []

theorem encodes : coseKey Demo.env key = .ok bytes := by rfl

end Iv

/-- C27 is refuted: a key with `base_IV` and without `key_ops` loses its
`base_IV`. -/
theorem C27_stored_keys_survive_refuted : ¬ StoredKeysSurvive Demo.env := by
  intro h
  have h1 := h Iv.key Iv.bytes ⟨_, Iv.parses⟩ Iv.encodes
  rw [C27_stored_key Demo.codec ⟨_, Iv.parses⟩ Iv.encodes] at h1
  simp [asStored, storedBase, Iv.key] at h1

/-- The partial theorem applies, e.g. to the key of the demonstration. -/
example : ∃ b, coseKey Demo.env Demo.key = .ok b ∧ parseCoseKeyBytes Demo.env b = .ok Demo.key :=
  ⟨_, rfl, C27_stored_keys_survive_partial Demo.codec
    ⟨_, parseCoseKeyDict_ok_iff.mpr Demo.keyMap_key⟩ rfl fun _ => rfl⟩

/-! ## Validation -/

/-- C44: `validate` accepts exactly the keys whose curve and algorithm belong to
the family of the class. -/
theorem C44_validate_exact {k : CPK} : validate k = .ok () ↔ KeyConsistent k := validate_ok_iff

/-- C44: for keys whose kty agrees with their class and that have an algorithm,
everything else is a `ValidationError`. -/
theorem C44_validate_error {k : CPK} {e : Exc} (h : validate k = .error e)
    (hk : match k with
      | .ec2 b _ _ _ => b.kty.id = .EC2 ∧ b.alg ≠ none
      | .okp b _ _ => b.kty.id = .OKP ∧ b.alg ≠ none
      | .base _ => False) : e = .lib .validation := by
  cases k with
  | ec2 b x y crv =>
    obtain ⟨h1, h2⟩ := hk
    obtain ⟨alg, ha⟩ := Option.ne_none_iff_exists'.mp h2
    simp only [validate, h1, ha, beq_self_eq_true, pyAssert] at h
    exact raises_bind (P := (· = Exc.lib .validation)) (raises_ok _) (fun _ =>
      raises_bind (raises_require rfl) fun _ => raises_require rfl) e h
  | okp b crv x =>
    obtain ⟨h1, h2⟩ := hk
    obtain ⟨alg, ha⟩ := Option.ne_none_iff_exists'.mp h2
    simp only [validate, h1, ha, beq_self_eq_true, pyAssert] at h
    exact raises_bind (P := (· = Exc.lib .validation)) (raises_ok _) (fun _ =>
      raises_bind (raises_require rfl) fun _ => raises_require rfl) e h
  | base b => exact absurd hk id

/-- What `validate` raises for the key: `UnimplementedError` for a key without a class of its own,
`AssertionError` for one whose key type is not that of its class or that has no algorithm, and
`ValidationError` for any other that is not consistent. -/
inductive ValidateRaises : CPK → Exc → Prop
  | unimplemented (b : KeyBase) : ValidateRaises (.base b) (.lib .unimplemented)
  | kty {k : CPK} (t : KeyType) : (∃ b x y crv, k = .ec2 b x y crv ∧ t = .EC2) ∨
      (∃ b crv x, k = .okp b crv x ∧ t = .OKP) → (baseOf k).kty.id ≠ t → ValidateRaises k .assertionError
  | alg {k : CPK} : (∀ b, k ≠ .base b) → (baseOf k).alg = none → ValidateRaises k .assertionError
  | validation {k : CPK} (t : KeyType) : (∃ b x y crv, k = .ec2 b x y crv ∧ t = .EC2) ∨
      (∃ b crv x, k = .okp b crv x ∧ t = .OKP) → (baseOf k).kty.id = t → (baseOf k).alg ≠ none →
      ¬ KeyConsistent k → ValidateRaises k (.lib .validation)

/-- C44: `validate` raises just these. -/
theorem C44_validate_raises {k : CPK} {e : Exc} : validate k = .error e ↔ ValidateRaises k e := by
  have hv := @C44_validate_exact k
  cases k with
  | base b =>
    constructor
    · intro h
      cases h
      exact .unimplemented b
    · intro h
      cases h with
      | unimplemented => rfl
      | kty t h => simp at h
      | alg h => exact absurd rfl (h b)
      | validation t h => simp at h
  | ec2 b x y crv =>
    by_cases hk : b.kty.id = .EC2
    · cases ha : b.alg with
      | none =>
        have : validate (.ec2 b x y crv) = .error .assertionError := by
          simp only [validate, hk, ha, beq_self_eq_true, pyAssert, if_true, ok_bind]
        rw [this]
        constructor
        · intro h
          cases h
          exact .alg nofun ha
        · intro h
          cases h with
          | kty => rfl
          | alg => rfl
          | validation t h1 h2 h3 => exact absurd ha h3
      | some alg =>
        constructor
        · intro h
          obtain rfl := C44_validate_error h ⟨hk, by simp [ha]⟩
          refine .validation .EC2 (.inl ⟨_, _, _, _, rfl, rfl⟩) hk (by simp [baseOf, ha]) fun hc => ?_
          rw [hv.mpr hc] at h
          cases h
        · intro h
          cases h with
          | kty t h1 h2 =>
            obtain ⟨b', x', y', crv', he, rfl⟩ : ∃ b' x' y' crv', CPK.ec2 b x y crv = .ec2 b' x' y' crv' ∧
              t = .EC2 := by simpa using h1
            exact absurd hk h2
          | alg h1 h2 => exact absurd h2 (by simp [baseOf, ha])
          | validation t h1 h2 h3 h4 =>
            cases hr : validate (.ec2 b x y crv) with
            | ok u => exact absurd (hv.mp hr) h4
            | error e => rw [C44_validate_error hr ⟨hk, by simp [ha]⟩]
    · have : validate (.ec2 b x y crv) = .error .assertionError := by
        simp only [validate, pyAssert, beq_iff_eq, hk, if_false]
        rfl
      rw [this]
      constructor
      · intro h
        cases h
        exact .kty .EC2 (.inl ⟨_, _, _, _, rfl, rfl⟩) hk
      · intro h
        cases h with
        | kty => rfl
        | alg => rfl
        | validation t h1 h2 h3 =>
          obtain ⟨b', x', y', crv', he, rfl⟩ : ∃ b' x' y' crv', CPK.ec2 b x y crv = .ec2 b' x' y' crv' ∧
            t = .EC2 := by simpa using h1
          exact absurd h2 hk
  | okp b crv x =>
    by_cases hk : b.kty.id = .OKP
    · cases ha : b.alg with
      | none =>
        have : validate (.okp b crv x) = .error .assertionError := by
          simp only [validate, hk, ha, beq_self_eq_true, pyAssert, if_true, ok_bind]
        rw [this]
        constructor
        · intro h
          cases h
          exact .alg nofun ha
        · intro h
          cases h with
          | kty => rfl
          | alg => rfl
          | validation t h1 h2 h3 => exact absurd ha h3
      | some alg =>
        constructor
        · intro h
          obtain rfl := C44_validate_error h ⟨hk, by simp [ha]⟩
          refine .validation .OKP (.inr ⟨_, _, _, rfl, rfl⟩) hk (by simp [baseOf, ha]) fun hc => ?_
          rw [hv.mpr hc] at h
          cases h
        · intro h
          cases h with
          | kty t h1 h2 =>
            obtain ⟨b', crv', x', he, rfl⟩ : ∃ b' crv' x', CPK.okp b crv x = .okp b' crv' x' ∧
              t = .OKP := by simpa using h1
            exact absurd hk h2
          | alg h1 h2 => exact absurd h2 (by simp [baseOf, ha])
          | validation t h1 h2 h3 h4 =>
            cases hr : validate (.okp b crv x) with
            | ok u => exact absurd (hv.mp hr) h4
            | error e => rw [C44_validate_error hr ⟨hk, by simp [ha]⟩]
    · have : validate (.okp b crv x) = .error .assertionError := by
        simp only [validate, pyAssert, beq_iff_eq, hk, if_false]
        rfl
      rw [this]
      constructor
      · intro h
        cases h
        exact .kty .OKP (.inr ⟨_, _, _, rfl, rfl⟩) hk
      · intro h
        cases h with
        | kty => rfl
        | alg => rfl
        | validation t h1 h2 h3 =>
          obtain ⟨b', crv', x', he, rfl⟩ : ∃ b' crv' x', CPK.okp b crv x = .okp b' crv' x' ∧
            t = .OKP := by simpa using h1
          exact absurd h2 hk

/-- An EC key that says it is an octet key pair. -/
example : validate (.ec2 { kty := .value .OKP, alg := some (.value .ES256) } [] [] (.value .P_256)) =
    .error .assertionError :=
  C44_validate_raises.mpr (.kty .EC2 (.inl ⟨_, _, _, _, rfl, rfl⟩) (by decide))

example : validate Demo.key = .ok () := C44_validate_exact.mpr Demo.key_consistent

/-- An ES256 key on an Edwards curve parses as a key but is not accepted. -/
example : validate (.okp { kty := .value .OKP, alg := some (.value .ES256) } (.value .ED25519) []) =
    .error (.lib .validation) := by rfl

/-! ## Conversion -/

/-- C45: `cryptography_public_key` gives the key that the credential key denotes,
and nothing else. -/
theorem C45_conversion_exact {env : Env} {k : CPK} {pk : CryptoKey} :
    cryptographyPublicKey env k = .ok pk ↔ KeyOf env k pk := cryptographyPublicKey_ok_iff

/-- The curve and the coordinates of a key. -/
def material : CPK → Option (Curve × List Bytes)
  | .ec2 _ x y crv => some (crv.id, [x, y])
  | .okp _ crv x => some (crv.id, [x])
  | .base _ => none

/-- C45: parsed keys that convert to the same key have the same curve and the
same coordinates, byte for byte. -/
theorem C45_conversion_injective {env : Env} {k k' : CPK} {d d' : Dict} {pk : CryptoKey}
    (hk : parseCoseKeyDict d = .ok k) (hk' : parseCoseKeyDict d' = .ok k')
    (h : cryptographyPublicKey env k = .ok pk) (h' : cryptographyPublicKey env k' = .ok pk) :
    material k = material k' := by
  rw [parseCoseKeyDict_ok_iff] at hk hk'
  rw [cryptographyPublicKey_ok_iff] at h h'
  have nist : ∀ {a b c}, NistCurve a c → NistCurve b c → a = b := by
    intro a b c h h'
    cases h <;> cases h' <;> rfl
  cases h with
  | ec2 b x y crv c nx ny hc hx hy hp =>
    cases h' with
    | ec2 b' x' y' crv' _ _ _ hc' hx' hy' hp' =>
      obtain ⟨-, -, -, -, -, -, l1, l2⟩ := hk
      obtain ⟨-, -, -, -, -, -, l1', l2'⟩ := hk'
      have hcrv := nist hc hc'
      rw [bigEndian_iff] at hx hy hx' hy'
      simp only [material, hcrv]
      rw [beNat_inj (by rw [l1, l1', hcrv]) (hx.symm.trans hx'),
        beNat_inj (by rw [l2, l2', hcrv]) (hy.symm.trans hy')]
  | ed25519 b crv x hc hu =>
    cases h' with
    | ed25519 b' crv' _ hc' hu' => simp only [material, hc, hc']
  | ed448 b crv x hc hu =>
    cases h' with
    | ed448 b' crv' _ hc' hu' => simp only [material, hc, hc']

/-- C45: a parsed key that the library rejects with `ValueError` gives
`PublicKeyConversionError`; any other exception is the one of the library. -/
theorem C45_conversion_error {env : Env} {k : CPK} {d : Dict} {e : Exc}
    (hk : parseCoseKeyDict d = .ok k) (h : cryptographyPublicKey env k = .error e) :
    (∃ e', ((∃ c x y, env.ecPoint c x y = .error e') ∨ (∃ x, env.ed25519Load x = .error e') ∨
        (∃ x, env.ed448Load x = .error e')) ∧
      Translated [.ValueError] .publicKeyConversion e' e) := by
  simp only [translated_iff (hp1 (fun _ => isValueError_iff) _)]
  rw [parseCoseKeyDict_ok_iff] at hk
  cases k with
  | base b => exact absurd hk id
  | ec2 b x y crv =>
    obtain ⟨-, -, -, hc, -⟩ := hk
    simp only [cryptographyPublicKey] at h
    rw [bind_error_iff] at h
    rcases h with h | ⟨c, -, h⟩
    · rcases hc with hc | hc | hc <;> simp [ec2CurveClass, hc] at h
    · rw [bind_error_iff] at h
      rcases h with h | ⟨_, -, h⟩
      · rw [catching_error_iff] at h
        obtain ⟨e', he', h⟩ := h
        exact ⟨e', Or.inl ⟨_, _, _, he'⟩, h⟩
      · cases h
  | okp b crv x =>
    obtain ⟨-, -, -, hc, -⟩ := hk
    simp only [cryptographyPublicKey] at h
    rw [catching_error_iff] at h
    obtain ⟨e', he', h⟩ := h
    refine ⟨e', Or.inr ?_, h⟩
    rcases hc with hc | hc
    · simp only [hc, bind_error_iff] at he'
      rcases he' with he' | ⟨_, -, he'⟩
      · exact Or.inl ⟨_, he'⟩
      · cases he'
    · simp only [hc, bind_error_iff] at he'
      rcases he' with he' | ⟨_, -, he'⟩
      · exact Or.inr ⟨_, he'⟩
      · cases he'

example : cryptographyPublicKey Demo.env Demo.key =
    .ok (.ec .SECP256R1 (beNat Demo.x) (beNat Demo.y)) :=
  C45_conversion_exact.mpr Demo.key_of

/-! ## Verification -/

/-- C46: `verify` succeeds exactly on signatures by the key, with the hash of the
key's own algorithm. -/
theorem C46_verify_exact {env : Env} {k : CPK} {sig data : Bytes} :
    verify env k sig data = .ok () ↔ SignedBy env k sig data := verify_ok_iff

/-- C46: a bad ECDSA signature is a `VerificationError`. -/
theorem C46_bad_ecdsa {env : Env} {b : KeyBase} {x y sig data : Bytes} {crv : NV Curve}
    {pk : CryptoKey} {alg : NV Alg} {h : HashAlg}
    (hk : KeyOf env (.ec2 b x y crv) pk) (ha : b.alg = some alg) (hh : EcdsaHash alg.id h)
    (hbad : env.ecdsaVerify pk h sig data = .error .invalidSignature) :
    verify env (.ec2 b x y crv) sig data = .error (.lib .verification) := by
  rw [← cryptographyPublicKey_ok_iff] at hk
  rw [← ec2HashAlgorithm_ok_iff] at hh
  simp only [verify, hk, ha]
  show (ec2HashAlgorithm alg >>= _) = _
  rw [hh]
  show catching _ _ _ = _
  rw [hbad]
  rfl

/-- C46: a bad EdDSA signature is a `VerificationError`. -/
theorem C46_bad_eddsa {env : Env} {b : KeyBase} {x sig data : Bytes} {crv : NV Curve}
    {pk : CryptoKey} (hk : KeyOf env (.okp b crv x) pk)
    (hbad : env.eddsaVerify pk sig data = .error .invalidSignature) :
    verify env (.okp b crv x) sig data = .error (.lib .verification) := by
  rw [← cryptographyPublicKey_ok_iff] at hk
  simp only [verify, hk]
  show catching _ _ _ = _
  rw [hbad]
  rfl

/-- C46: other classes. -/
theorem C46_other_class {env : Env} {b : KeyBase} {sig data : Bytes} :
    verify env (.base b) sig data = .error (.lib .unimplemented) := rfl

example : verify Demo.env Demo.key Demo.signature (Demo.authRaw ++ Demo.sha Demo.authCdj) = .ok () :=
  C46_verify_exact.mpr Demo.signature_ok

example : verify Demo.env Demo.key [] [] = .error (.lib .verification) := by
  refine C46_bad_ecdsa (alg := .value .ES256) (h := .SHA256) Demo.key_of rfl .es256 ?_
  rw [Demo.ecdsaVerify_eq, Demo.check, if_neg]
  simp [Demo.sign, Demo.pubKey, toBE]

/-! ## Case conversion -/

theorem snakeChunks_word {w rest cur : List Char} (h : '_' ∉ w) :
    snakeChunks (w ++ rest) cur = snakeChunks rest (cur ++ w) := by
  induction w generalizing cur with
  | nil => simp
  | cons c w ih =>
    rw [List.mem_cons, not_or] at h
    rw [List.cons_append, snakeChunks, if_neg (fun e => h.1 e.symm), ih h.2]
    simp

theorem snakeChunks_join (ws : List (List Char)) (h : ∀ w ∈ ws, w ≠ [] ∧ '_' ∉ w) :
    snakeChunks (joinUnderscore ws) [] = ws := by
  induction ws with
  | nil => rfl
  | cons w ws ih =>
    obtain ⟨h1, h2⟩ := h w (by simp)
    have ih := ih fun w hw => h w (by simp [hw])
    cases ws with
    | nil =>
      have := snakeChunks_word (rest := []) (cur := []) h2
      rw [List.append_nil] at this
      simp [joinUnderscore, this, snakeChunks, h1]
    | cons w' ws =>
      rw [joinUnderscore, snakeChunks_word h2, List.nil_append, snakeChunks, if_pos rfl,
        if_neg h1, ih]
      simp

/-- What the words are: the first continues `cur`, the others start with an
upper-case letter; none has another one. -/
theorem camelWords_spec (cs cur : List Char) (hcur : cur ≠ []) :
    ∃ t ws, camelWords cs cur = (cur ++ t) :: ws ∧ (∀ c ∈ t, isUpper c = false) ∧
      (∀ w ∈ ws, ∃ u v, w = u :: v ∧ isUpper u = true ∧ ∀ c ∈ v, isUpper c = false) ∧
      cs = t ++ ws.flatten := by
  induction cs generalizing cur with
  | nil => exact ⟨[], [], by simp [camelWords, hcur], by simp, by simp, rfl⟩
  | cons c cs ih =>
    by_cases hc : isUpper c = true
    · obtain ⟨t, ws, h1, h2, h3, h4⟩ := ih [c] (by simp)
      refine ⟨[], (c :: t) :: ws, ?_, by simp, ?_, ?_⟩
      · rw [camelWords, if_pos hc, h1]; simp
      · intro w hw
        rcases List.mem_cons.mp hw with rfl | hw
        · exact ⟨c, t, rfl, hc, h2⟩
        · exact h3 w hw
      · simp [h4]
    · obtain ⟨t, ws, h1, h2, h3, h4⟩ := ih (cur ++ [c]) (by simp)
      refine ⟨c :: t, ws, ?_, ?_, h3, ?_⟩
      · rw [camelWords, if_neg hc, h1]; simp
      · intro d hd
        rcases List.mem_cons.mp hd with rfl | hd
        · simpa using hc
        · exact h2 d hd
      · simp [h4]

set_option maxRecDepth 8000 in
theorem case_table : ∀ n < 128, (isUpper (Char.ofNat n) = true →
    toUpper (toLower (Char.ofNat n)) = Char.ofNat n) ∧
    (Char.ofNat n ≠ '_' → toLower (Char.ofNat n) ≠ '_') := by decide

theorem ofNat_toNat' (c : Char) : Char.ofNat c.toNat = c := Char.ofNat_toNat c

theorem toLower_of {c : Char} (h : isUpper c = false) : toLower c = c := by
  simp [toLower, h]

/-- C39: the two conversions of names are inverse on camel-cased ASCII names. -/
theorem C39_case_round_trip (s : List Char) (hascii : ∀ c ∈ s, c.toNat < 128) (hu : '_' ∉ s)
    (hfirst : ∀ c, s.head? = some c → c ∉ upperLetters) :
    snakeToCamelChars (camelToSnakeChars s) = s := by
  cases s with
  | nil => rfl
  | cons c cs =>
    have hc : isUpper c = false := by
      simpa using mt (letters c).2.2.mp (hfirst c rfl)
    obtain ⟨t, ws, h1, h2, h3, rfl⟩ := camelWords_spec cs [c] (by simp)
    have hw : camelWords (c :: (t ++ ws.flatten)) [] = (c :: t) :: ws := by
      rw [camelWords, hc]
      simpa using h1
    have hlow : ∀ l : List Char, (∀ c ∈ l, isUpper c = false) → l.map toLower = l := by
      intro l hl
      conv_rhs => rw [← List.map_id l]
      exact List.map_congr_left fun c hc => toLower_of (hl c hc)
    unfold snakeToCamelChars camelToSnakeChars
    rw [hw, snakeChunks_join]
    · rw [List.map_cons]
      simp only
      rw [hlow (c :: t) (by simpa [hc] using h2), List.cons_append]
      congr 2
      rw [List.map_map]
      congr 1
      conv_rhs => rw [← List.map_id ws]
      refine List.map_congr_left fun w hw => ?_
      obtain ⟨u, v, rfl, hu', hv⟩ := h3 w hw
      have hmem : u ∈ c :: (t ++ ws.flatten) := by
        simp only [List.mem_cons, List.mem_append, List.mem_flatten]
        exact Or.inr (Or.inr ⟨_, hw, by simp⟩)
      have := (case_table _ (hascii u hmem)).1
      rw [ofNat_toNat'] at this
      simp only [Function.comp, List.map_cons, capitalise, this hu', hlow v hv, id]
    · intro w' hm'
      obtain ⟨w, hw', rfl⟩ := List.mem_map.mp hm'
      clear hm'
      have hsub : ∀ d ∈ w, d ∈ c :: (t ++ ws.flatten) := by
        intro d hd
        rcases List.mem_cons.mp hw' with rfl | hw'
        · simp only [List.mem_cons, List.mem_append] at hd ⊢
          tauto
        · simp only [List.mem_cons, List.mem_append, List.mem_flatten]
          exact Or.inr (Or.inr ⟨_, hw', hd⟩)
      refine ⟨?_, fun hm => ?_⟩
      · rcases List.mem_cons.mp hw' with rfl | hw'
        · simp
        · obtain ⟨u, v, rfl, -⟩ := h3 w hw'
          simp
      · obtain ⟨d, hd, hd'⟩ := List.mem_map.mp hm
        have hdm := hsub d hd
        have := (case_table _ (hascii d hdm)).2
        rw [ofNat_toNat'] at this
        exact this (fun e => hu (e ▸ hdm)) hd'

/-- C39: what the two conversions do to any name. -/
theorem C39_names_exact (s : String) :
    snakeToCamel s = .ofList (camel false false s.toList) ∧ camelToSnake s = .ofList (snake s.toList) :=
  ⟨congrArg String.ofList (snakeToCamelChars_eq _ _), congrArg String.ofList (camelToSnakeChars_eq _)⟩

/-- C39: the attribute that an extension identifier is looked up under is the one
that holds the value with this name on the wire. -/
theorem C39_extension_names (i : ExtId) :
    snakeToCamel i.key = i.value ∧
    ∀ e : Extensions, extAttrPresent (some e) i.key = true ↔ HasExtension e i := by
  refine ⟨?_, fun e => ?_⟩
  · unfold snakeToCamel ExtId.key camelToSnake
    rw [String.toList_ofList, C39_case_round_trip]
    · exact String.ofList_toList
    · cases i <;> decide
    · cases i <;> decide
    · cases i <;> decide
  · rw [extAttrPresent_iff]
    simp

example : snakeToCamelChars (camelToSnakeChars "authnSelX9Y".toList) = "authnSelX9Y".toList :=
  C39_case_round_trip _ (by decide) (by decide) (by decide)

end WebAuthn.Props
