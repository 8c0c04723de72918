import Verif.Props.Jsonify
import Verif.Lemmas.Options

/-!
# Options and builders (C41, C43)
-/

namespace WebAuthn.Props

open WebAuthn WebAuthn.Spec

/-! ## Conversion of the options -/

/-- C41: `jsonify` of creation options whose sequences are lists or tuples returns
their JSON form: the names of the specification, exactly the values that are not
`None`, and the challenge as a base64 text that decodes to it. -/
theorem C41_creation (o : CreationOptions) (h : CreationListed o) :
    ∃ v, jsonify true o.toObj = .ok v ∧ CreationJson o v :=
  (conv_creation o h).2

/-- C41: the same for request options. -/
theorem C41_request (o : RequestOptions) (h : RequestListed o) :
    ∃ v, jsonify true o.toObj = .ok v ∧ RequestJson o v :=
  (conv_request o h).2

/-- C41: with a sequence of another type `jsonify` raises `UnimplementedError` or
`JSONConversionError`, so lists and tuples are all that works. -/
theorem C41_creation_listed (o : CreationOptions) :
    (∃ v, jsonify true o.toObj = .ok v) ↔ CreationListed o :=
  ⟨fun h => supported_creation ((C40_supported true _).mp h),
    fun h => (C41_creation o h).imp fun _ h => h.1⟩

/-- C41: the same for request options. -/
theorem C41_request_listed (o : RequestOptions) :
    (∃ v, jsonify true o.toObj = .ok v) ↔ RequestListed o :=
  ⟨fun h => supported_request ((C40_supported true _).mp h),
    fun h => (C41_request o h).imp fun _ h => h.1⟩

/-- C41: the challenge is found under `publicKey.challenge` and decodes to the
bytes it was made of. -/
theorem C41_challenge (o : CreationOptions) (v : PyVal) (h : jsonify true o.toObj = .ok v) :
    ∃ d pk t, v = .dict d ∧ (.str "publicKey", .dict pk) ∈ d ∧ (.str "challenge", .str t) ∈ pk ∧
      Base64Text t o.challenge := by
  obtain ⟨w, hw, d, rfl, -, -, h1⟩ := C41_creation o ((C41_creation_listed o).mp ⟨v, h⟩)
  rw [h] at hw
  cases hw
  obtain ⟨j, hj, pk, rfl, -, -, h2⟩ := h1 "publicKey" _ (by simp; rfl)
  obtain ⟨j, hc, t, rfl, ht⟩ := h2 "challenge" _ (by simp; rfl)
  exact ⟨d, pk, t, rfl, hj, hc, encodes_std_iff.mp ht ▸ b64decode_ok_iff.mp (b64decode_b64encode _)⟩

/-- C41: the same for request options. -/
theorem C41_request_challenge (o : RequestOptions) (v : PyVal) (h : jsonify true o.toObj = .ok v) :
    ∃ d pk t, v = .dict d ∧ (.str "publicKey", .dict pk) ∈ d ∧ (.str "challenge", .str t) ∈ pk ∧
      Base64Text t o.challenge := by
  obtain ⟨w, hw, d, rfl, -, -, h1⟩ := C41_request o ((C41_request_listed o).mp ⟨v, h⟩)
  rw [h] at hw
  cases hw
  obtain ⟨j, hj, pk, rfl, -, -, h2⟩ := h1 "publicKey" _ (by simp; rfl)
  obtain ⟨j, hc, t, rfl, ht⟩ := h2 "challenge" _ (by simp; rfl)
  exact ⟨d, pk, t, rfl, hj, hc, encodes_std_iff.mp ht ▸ b64decode_ok_iff.mp (b64decode_b64encode _)⟩

/-! ## Setter histories -/

/-- C43: a setter raises exactly when a required attribute is set to `None`; the
error is an `AssertionError`. -/
theorem C43_setter (b : CreationBuilder) (s : CreationSetter) :
    (∀ e, b.set s = .error e → e = .assertionError) ∧
    ((∃ e, b.set s = .error e) ↔
      s = .rp none ∨ s = .pubKeyCredParams none ∨ s = .attestation none) := by
  rcases s with (_ | v) | (_ | v) | v | v | v | (_ | v) | v <;> simp [CreationBuilder.set]

/-- C43: what `build` of a creation builder returns. -/
theorem C43_creation (b b' : CreationBuilder) (calls : List CreationSetter)
    (h : b.setAll calls = .ok b') (user : UserEntity) (challenge : Bytes) :
    (∀ e, b'.build (some user) (some challenge) = .error e → e = .lib .builder) ∧
    ((∃ e, b'.build (some user) (some challenge) = .error e) ↔
      (b.rp = none ∧ ∀ v, .rp v ∉ calls) ∨
      (b.pubKeyCredParams = none ∧ ∀ v, .pubKeyCredParams v ∉ calls) ∨
      (b.attestation = none ∧ ∀ v, .attestation v ∉ calls)) ∧
    ∀ o, b'.build (some user) (some challenge) = .ok o →
      o.user = user ∧ o.challenge = challenge ∧
      LastSet (fun | .rp v => some v | _ => none) calls b.rp (some o.rp) ∧
      LastSet (fun | .pubKeyCredParams v => some v | _ => none) calls b.pubKeyCredParams
        (some o.pubKeyCredParams) ∧
      LastSet (fun | .timeout v => some v | _ => none) calls b.timeout o.timeout ∧
      LastSet (fun | .authenticatorSelection v => some v | _ => none) calls
        b.authenticatorSelection o.authenticatorSelection ∧
      LastSet (fun | .extensions v => some v | _ => none) calls b.extensions o.extensions ∧
      LastSet (fun | .attestation v => some v | _ => none) calls b.attestation
        (some o.attestation) ∧
      LastSet (fun | .excludeCredentials v => some v | _ => none) calls b.excludeCredentials
        o.excludeCredentials := by
  have l1 := creation_lastSet (·.rp) (fun | .rp v => some v | _ => none) (by
    rintro b ((_ | v) | (_ | v) | v | v | v | (_ | v) | v) b' h <;> cases h <;> simp) h
  have l2 := creation_lastSet (·.pubKeyCredParams)
    (fun | .pubKeyCredParams v => some v | _ => none) (by
    rintro b ((_ | v) | (_ | v) | v | v | v | (_ | v) | v) b' h <;> cases h <;> simp) h
  have l3 := creation_lastSet (·.timeout) (fun | .timeout v => some v | _ => none) (by
    rintro b ((_ | v) | (_ | v) | v | v | v | (_ | v) | v) b' h <;> cases h <;> simp) h
  have l4 := creation_lastSet (·.authenticatorSelection)
    (fun | .authenticatorSelection v => some v | _ => none) (by
    rintro b ((_ | v) | (_ | v) | v | v | v | (_ | v) | v) b' h <;> cases h <;> simp) h
  have l5 := creation_lastSet (·.extensions) (fun | .extensions v => some v | _ => none) (by
    rintro b ((_ | v) | (_ | v) | v | v | v | (_ | v) | v) b' h <;> cases h <;> simp) h
  have l6 := creation_lastSet (·.attestation) (fun | .attestation v => some v | _ => none) (by
    rintro b ((_ | v) | (_ | v) | v | v | v | (_ | v) | v) b' h <;> cases h <;> simp) h
  have l7 := creation_lastSet (·.excludeCredentials)
    (fun | .excludeCredentials v => some v | _ => none) (by
    rintro b ((_ | v) | (_ | v) | v | v | v | (_ | v) | v) b' h <;> cases h <;> simp) h
  have n1 : b'.rp = none ↔ b.rp = none ∧ ∀ v, .rp v ∉ calls := by
    rw [lastSet_none_iff l1]
    · refine and_congr_right fun _ => ⟨fun h v hv => by simpa using h _ hv, fun h s hs => ?_⟩
      cases s <;> first | rfl | exact absurd hs (h _)
    · intro s hs
      obtain ⟨c, c', hc⟩ := creation_setAll_mem h hs
      rcases s with (_ | v) | v | v | v | v | v | v <;> simp_all [CreationBuilder.set]
  have n2 : b'.pubKeyCredParams = none ↔
      b.pubKeyCredParams = none ∧ ∀ v, .pubKeyCredParams v ∉ calls := by
    rw [lastSet_none_iff l2]
    · refine and_congr_right fun _ => ⟨fun h v hv => by simpa using h _ hv, fun h s hs => ?_⟩
      cases s <;> first | rfl | exact absurd hs (h _)
    · intro s hs
      obtain ⟨c, c', hc⟩ := creation_setAll_mem h hs
      rcases s with v | (_ | v) | v | v | v | v | v <;> simp_all [CreationBuilder.set]
  have n3 : b'.attestation = none ↔ b.attestation = none ∧ ∀ v, .attestation v ∉ calls := by
    rw [lastSet_none_iff l6]
    · refine and_congr_right fun _ => ⟨fun h v hv => by simpa using h _ hv, fun h s hs => ?_⟩
      cases s <;> first | rfl | exact absurd hs (h _)
    · intro s hs
      obtain ⟨c, c', hc⟩ := creation_setAll_mem h hs
      rcases s with v | v | v | v | v | (_ | v) | v <;> simp_all [CreationBuilder.set]
  rw [← n1, ← n2, ← n3]
  cases h1 : b'.rp with
  | none => simp [CreationBuilder.build, h1, raise]
  | some rp =>
    cases h2 : b'.pubKeyCredParams with
    | none => simp [CreationBuilder.build, h1, h2, raise]
    | some params =>
      cases h3 : b'.attestation with
      | none => simp [CreationBuilder.build, h1, h2, h3, raise]
      | some att =>
        simp only [h1, h2, h3] at l1 l2 l6
        simp only [CreationBuilder.build, h1, h2, h3]
        refine ⟨nofun, ⟨nofun, nofun⟩, ?_⟩
        rintro o ho
        cases ho
        exact ⟨rfl, rfl, l1, l2, l3, l4, l5, l6, l7⟩

/-- C43: the same for request builders: only the mediation is required. -/
theorem C43_request (b b' : RequestBuilder) (calls : List RequestSetter)
    (h : b.setAll calls = .ok b') (challenge : Bytes) (allow : Option (PySeq FullDescriptor)) :
    (∀ e, b'.build (some challenge) allow = .error e → e = .lib .builder) ∧
    ((∃ e, b'.build (some challenge) allow = .error e) ↔
      b.mediation = none ∧ ∀ v, .mediation v ∉ calls) ∧
    ∀ o, b'.build (some challenge) allow = .ok o →
      o.challenge = challenge ∧ o.allowCredentials = allow ∧
      LastSet (fun | .mediation v => some v | _ => none) calls b.mediation (some o.mediation) ∧
      LastSet (fun | .timeout v => some v | _ => none) calls b.timeout o.timeout ∧
      LastSet (fun | .rpId v => some v | _ => none) calls b.rpId o.rpId ∧
      LastSet (fun | .extensions v => some v | _ => none) calls b.extensions o.extensions ∧
      LastSet (fun | .userVerification v => some v | _ => none) calls b.userVerification
        o.userVerification := by
  have l1 := request_lastSet (·.mediation) (fun | .mediation v => some v | _ => none) (by
    rintro b ((_ | v) | v | v | v | v) b' h <;> cases h <;> simp) h
  have l2 := request_lastSet (·.timeout) (fun | .timeout v => some v | _ => none) (by
    rintro b ((_ | v) | v | v | v | v) b' h <;> cases h <;> simp) h
  have l3 := request_lastSet (·.rpId) (fun | .rpId v => some v | _ => none) (by
    rintro b ((_ | v) | v | v | v | v) b' h <;> cases h <;> simp) h
  have l4 := request_lastSet (·.extensions) (fun | .extensions v => some v | _ => none) (by
    rintro b ((_ | v) | v | v | v | v) b' h <;> cases h <;> simp) h
  have l5 := request_lastSet (·.userVerification)
    (fun | .userVerification v => some v | _ => none) (by
    rintro b ((_ | v) | v | v | v | v) b' h <;> cases h <;> simp) h
  have n1 : b'.mediation = none ↔ b.mediation = none ∧ ∀ v, .mediation v ∉ calls := by
    rw [lastSet_none_iff l1]
    · refine and_congr_right fun _ => ⟨fun h v hv => by simpa using h _ hv, fun h s hs => ?_⟩
      cases s <;> first | rfl | exact absurd hs (h _)
    · intro s hs
      obtain ⟨c, c', hc⟩ := request_setAll_mem h hs
      rcases s with (_ | v) | v | v | v | v <;> simp_all [RequestBuilder.set]
  rw [← n1]
  cases h1 : b'.mediation with
  | none => simp [RequestBuilder.build, h1, raise]
  | some m =>
    simp only [h1] at l1
    simp only [RequestBuilder.build, h1]
    refine ⟨nofun, ⟨nofun, nofun⟩, ?_⟩
    rintro o ho
    cases ho
    exact ⟨rfl, rfl, l1, l2, l3, l4, l5⟩

/-- C43: the default builders: a creation builder needs `rp` and
`pub_key_cred_params`, a request builder nothing. -/
theorem C43_defaults (user : UserEntity) (challenge : Bytes)
    (allow : Option (PySeq FullDescriptor)) :
    ({} : CreationBuilder).build (some user) (some challenge) = .error (.lib .builder) ∧
    (∀ rp params, ∃ o, ({ rp := some rp, pubKeyCredParams := some params } :
      CreationBuilder).build (some user) (some challenge) = .ok o ∧ o.attestation = .NONE) ∧
    ∃ o, ({} : RequestBuilder).build (some challenge) allow = .ok o ∧
      o.mediation = .OPTIONAL ∧ o.userVerification = some .PREFERRED :=
  ⟨rfl, fun _ _ => ⟨_, rfl, rfl⟩, _, rfl, rfl, rfl⟩

/-! ## A concrete case -/

namespace Options

/-- Options with every kind of member. -/
def creation : CreationOptions where
  rp := { name := "localhost", id := "localhost" }
  user := { name := "ann", icon := some "data:,", id := [1, 2, 3], displayName := "Ann" }
  challenge := [255, 254]
  pubKeyCredParams := ⟨.list, [⟨.value .ES256⟩, ⟨.name .EDDSA⟩]⟩
  timeout := some 60000
  excludeCredentials := some ⟨.tuple, [⟨[7], some ⟨.list, [.USB, .INTERNAL]⟩⟩, ⟨[8], none⟩]⟩
  authenticatorSelection := some {}
  attestation := .DIRECT
  extensions := some {
    appid := some "https://a.example"
    authnSel := some ⟨.list, [[9]]⟩
    biometricPerfBounds := some ⟨.int 1, .float ⟨0⟩⟩ }

theorem creation_listed : CreationListed creation := by
  refine ⟨by simp [Listed, creation], ?_, ?_⟩
  · rintro s hs
    cases hs
    refine ⟨by simp [Listed], ?_⟩
    intro d hd t ht
    simp only [List.mem_cons, List.not_mem_nil, or_false] at hd
    rcases hd with rfl | rfl
    · cases ht
      simp [Listed]
    · cases ht
  · rintro e he
    cases he
    rintro s hs
    cases hs
    simp [Listed]

example : ∃ v, jsonify true creation.toObj = .ok v ∧ CreationJson creation v :=
  C41_creation creation creation_listed

/-- A deque of parameters is refused. -/
example : ¬ ∃ v, jsonify true
    { creation with pubKeyCredParams := ⟨.other, [⟨.value .ES256⟩]⟩ }.toObj = .ok v :=
  fun h => ((C41_creation_listed _).mp h).1 rfl

example : ∃ b', ({} : CreationBuilder).setAll [.rp (some creation.rp), .timeout (some 5),
    .pubKeyCredParams (some creation.pubKeyCredParams), .timeout none] = .ok b' ∧
    b'.timeout = none ∧ ∃ o, b'.build (some creation.user) (some [1]) = .ok o :=
  ⟨_, rfl, rfl, _, rfl⟩

end Options

end WebAuthn.Props
