import Verif.Props.DemoRich
import Verif.Props.OriginCeremony
import Verif.Props.Failure
import Verif.Props.Keys
import Verif.Props.Parse
import Verif.Props.Options
import Verif.Props.Heap
import Verif.Props.Registrar
import Verif.Props.Repaired

/-!
# The theorems, applied to the concrete worlds

For each theorem, arguments that meet its hypotheses.
-/

namespace WebAuthn.Demo

open WebAuthn WebAuthn.Spec WebAuthn.Props

/-! ## Accepted ceremonies -/

theorem reg_ok : handleAttestation env registrar richRegArgs [] = (.ok (), [(credId, stored 5)]) :=
  rich_registration_ok [] rfl

theorem auth_ok : handleAssertion env registrar richAuthArgs [(credId, richStored 5)] =
    (.ok (), [(credId, richStored 4), (credId, richStored 5)]) := rich_authentication_ok []

theorem reg_ok' : handleAttestation env registrar regArgs [] = (.ok (), [(credId, stored 1)]) :=
  registration_ok [] rfl

theorem auth_ok' : handleAssertion env registrar authArgs [(credId, stored 1)] =
    (.ok (), [(credId, stored 2), (credId, stored 1)]) := authentication_ok []

example := C01_signature_required auth_ok
example := C02_type_registration reg_ok
example := C02_type_authentication auth_ok
example := C03_challenge_registration reg_ok
example := C03_challenge_authentication auth_ok
example := C03_challenge_unique auth_ok (rich_authentication_ok [(credId, stored 1)]) rfl
example := C04_origin_registration reg_ok
example := C04_origin_authentication auth_ok
example := C05_rp_hash_registration reg_ok
example := C05_rp_hash_authentication auth_ok
example := C06_user_presence_registration reg_ok
example := C06_user_presence_authentication auth_ok
example := C07_user_verification_registration reg_ok' rfl
example := C07_user_verification_authentication auth_ok' rfl
example := C08_extensions_registration reg_ok rfl
example := C08_extensions_authentication auth_ok rfl
example := C09_token_binding_registration reg_ok
example := C09_token_binding_authentication auth_ok
example := C10_allow_list_success auth_ok' rfl
example := C11_user_bound auth_ok
example := C11_user_bound auth_ok'
example := C12_rp_bound auth_ok
example := C12_rp_bound auth_ok'
example := C13_counter_increases auth_ok' rfl

/-- The counter went down, and it is ignored. -/
example := (C13_counter_ignored (env := env) (reg := registrar) (a := richAuthArgs)
  (s := [(credId, richStored 5)]) (cd := richStored 5) (by
    show (Except.ok (lookup _ credId), _) = _
    rw [lookup_head]) (Or.inr rfl)).mp auth_ok

/-! ## User verification not required -/

/-- A registrar that takes everything. -/
def taking : Registrar Unit where
  registerAttestation := fun _ s => (.ok none, s)
  registerAssertion := fun _ s => (.ok none, s)
  getCredentialData := fun _ s => (.ok (some (richStored 5)), s)

theorem flips (rest : Bytes) (f f' : UInt8) (h : ∀ i < 8, i ≠ 2 → f.toNat.testBit i = f'.toNat.testBit i)
    (h2 : f.toNat.testBit 2 = !f'.toNat.testBit 2) :
    FlipsUV (rpHash ++ f :: rest) (rpHash ++ f' :: rest) := by
  refine ⟨rpHash, f, f', rest, sha_length _, rfl, rfl, fun i hi => ?_, h2⟩
  rcases Nat.lt_or_ge i 8 with h8 | h8
  · exact h i h8 hi
  · have hp : 2 ^ 8 ≤ 2 ^ i := Nat.pow_le_pow_right (by decide) h8
    rw [Nat.testBit_lt_two_pow (lt_of_lt_of_le f.toNat_lt hp),
      Nat.testBit_lt_two_pow (lt_of_lt_of_le f'.toNat_lt hp)]

def uvAuthRaw : Bytes := rpHash ++ [0x85] ++ [0, 0, 0, 4] ++ [] ++ extBytes

def uvSignature : Bytes := sign pubKey (uvAuthRaw ++ sha richAuthCdj)

/-- The same response with the UV bit set. -/
def uvAuthArgs : AssertionArgs :=
  { richAuthArgs with credential := { richAuthArgs.credential with
      response := .assertion richAuthCdj uvAuthRaw uvSignature none } }

theorem auth_flips : FlipsUV richAuthRaw uvAuthRaw := by
  have e : ∀ f : UInt8, rpHash ++ [f] ++ [0, 0, 0, 4] ++ [] ++ extBytes =
      rpHash ++ f :: ([0, 0, 0, 4] ++ [] ++ extBytes) := by simp
  rw [richAuthRaw, uvAuthRaw, e, e]
  exact flips _ _ _ (by decide) (by decide)

theorem taking_auth : handleAssertion env taking richAuthArgs () = (.ok (), ()) := by
  obtain ⟨h1, h2, cd, s1, u, rp, ad, h3, h4, -⟩ := assertion_accepts.mp auth_ok
  have hcd : cd = richStored 5 := by
    change (Except.ok (lookup _ credId), _) = _ at h3
    rw [lookup_head] at h3
    cases h3
    rfl
  subst hcd
  exact assertion_accepts.mpr ⟨h1, h2, richStored 5, (), u, rp, ad, rfl, h4, rfl⟩

example : ∃ s', handleAssertion env taking uvAuthArgs () = (.ok (), s') :=
  (C07_user_verification_ignored (a := richAuthArgs) (cd := richStored 5) (s1 := ()) rfl auth_flips rfl
    rfl rfl richSignature_ok
    (.ecdsa _ _ _ _ pubKey _ _ _ _ key_of rfl .es256 (check_sign pubKey (uvAuthRaw ++ sha richAuthCdj)))
    (fun _ _ => ⟨(), rfl⟩)).mp ⟨(), taking_auth⟩

def uvRegRaw : Bytes := rpHash ++ [0xc5] ++ [0, 0, 0, 5] ++
  (List.replicate 16 0xaa ++ [0, 4] ++ credId ++ keyBytes) ++ extBytes

theorem reg_flips : FlipsUV richRegRaw uvRegRaw := by
  have e : ∀ f : UInt8, rpHash ++ [f] ++ [0, 0, 0, 5] ++
      (List.replicate 16 0xaa ++ [0, 4] ++ credId ++ keyBytes) ++ extBytes =
      rpHash ++ f :: ([0, 0, 0, 5] ++
        (List.replicate 16 0xaa ++ [0, 4] ++ credId ++ keyBytes) ++ extBytes) := by simp
  rw [richRegRaw, uvRegRaw, e, e]
  exact flips _ _ _ (by decide) (by decide)

theorem uvRegRaw_length : uvRegRaw.length < 2 ^ 64 := by
  have : keyBytes.length = 77 := by decide
  have h2 : extBytes.length = 16 := by decide
  simp [uvRegRaw, rpHash, show ∀ b, (sha b).length = 32 from sha_length, this, h2, credId]

def uvAttObj : Bytes := (Cbor.enc (.dict (objMap uvRegRaw))).toOption.getD []

theorem noneObject_of {raw ob : Bytes} {ad : AuthData} (h : EncodedNoneAttestation env raw ob)
    (had : AuthDataOf env raw ad) : AttObjOf env ob ⟨ad, .NONE, .none⟩ raw := by
  obtain ⟨d, h1, h2, h3, h4, h5⟩ := h
  have := codec.roundTrip h4 h5 []
  rw [List.append_nil] at this
  exact ⟨d, [], [], this, h3, had, h1, h2, rfl, rfl⟩

theorem taking_reg : handleAttestation env taking richRegArgs () = (.ok (), ()) := by
  obtain ⟨h1, o, raw, h2, h3, -⟩ := attestation_accepts.mp reg_ok
  exact attestation_accepts.mpr ⟨h1, o, raw, h2, h3, rfl⟩

example : ∃ s', handleAttestation env taking { richRegArgs with
    credential := { richRegArgs.credential with response := .attestation richRegCdj uvAttObj } } () =
      (.ok (), s') :=
  C07_user_verification_ignored_registration (a := richRegArgs) (o := ⟨richRegAd, .NONE, .none⟩) rfl
    reg_flips rfl rfl
    (noneObject_of (noneObject richRegRaw_length) (encodedAuthData_of codec richRegRaw_enc))
    (fun _ h => noneObject_of (noneObject uvRegRaw_length) h) (fun _ _ => ⟨(), rfl⟩) taking_reg

/-! ## Refused ceremonies -/

/-- A signature of one byte. -/
def forgedArgs : AssertionArgs :=
  { richAuthArgs with credential := { richAuthArgs.credential with
      response := .assertion richAuthCdj richAuthRaw [0] none } }

theorem not_signed (data : Bytes) : ¬ SignedBy env key [0] data := by
  rintro (⟨b, x, y, crv, pk, alg, h, sig, data, hk, ha, hh, hv⟩ | _)
  rw [ecdsaVerify_eq, check] at hv
  split_ifs at hv with he
  have hl := congrArg List.length he
  have h : ∀ b, (sha b).length = 32 := sha_length
  cases hk with
  | ec2 => simp [sign, h, Cbor.toBE_length] at hl

example : ∃ e s', handleAssertion env registrar forgedArgs [(credId, richStored 5)] = (.error e, s') :=
  C01_no_signature_no_login rfl fun cd s1 hg => by
    change (Except.ok (lookup _ credId), _) = _ at hg
    rw [lookup_head] at hg
    cases hg
    exact not_signed _

example := C04_empty_expectation (env := env) (reg := registrar) (s := [])
  (a := { regArgs with expectedOrigin := .many [] }) (b := { authArgs with expectedOrigin := .many [] })
  rfl rfl

theorem not_origin : ¬ ∃ o, OriginOf env "ftp://example.com" o := by
  rintro ⟨o, h⟩
  rw [← parseOrigin_ok_iff] at h
  have : parseOrigin env "ftp://example.com" = .error (.lib .origin) := by decide
  rw [this] at h
  cases h

example := C04_malformed_expectation (env := env) (reg := registrar) (s := [])
  (a := { regArgs with expectedOrigin := .many [origin, "ftp://example.com"] })
  (b := { authArgs with expectedOrigin := .one "ftp://example.com" })
  (e := "ftp://example.com") (e' := "ftp://example.com")
  (by simp [originList]) not_origin (by simp [originList]) not_origin

/-! ## Attestation statements -/

/-- The U2F statement of `Props/Attest.lean` with another signature. -/
example := C21_fido_u2f_wrong_signature (env := env) (sig := [0]) (raw := regRaw) (hash := sha regCdj)
  (o := U2F.att) (acd := attested) rfl U2F.load_cert rfl rfl rfl (by
    rw [ecdsaVerify_eq, check, if_neg]
    intro he
    have hl := congrArg List.length he
    have h : ∀ b, (sha b).length = 32 := sha_length
    simp [sign, h, Cbor.toBE_length] at hl)

example : ∃ s', handleAttestation env taking richRegArgs () = (.ok (), s') := by
  obtain ⟨h1, o, raw, h2, h3, -⟩ := attestation_accepts.mp reg_ok
  exact C19_none_accepted_partial h1 h2 h3 fun _ => ⟨(), rfl⟩

/-- The registration, recorded. -/
theorem recorded_reg : ∃ log, handleAttestation env (recording registrar) richRegArgs ([], []) =
    (.ok (), [(credId, stored 5)], log) := by
  obtain ⟨h1, o, raw, h2, h3, h4⟩ := attestation_accepts.mp reg_ok
  refine ⟨_, attestation_accepts.mpr ⟨h1, o, raw, h2, h3, Prod.ext ?_ (Prod.ext ?_ rfl)⟩⟩
  · have := congrArg Prod.fst h4
    exact this
  · have := congrArg Prod.snd h4
    exact this

example := C20_registrar_can_compare_partial recorded_reg.choose_spec

/-! ## What failures leave behind -/

theorem refused_auth : handleAssertion env registrar authArgs [] = (.error (.lib .credentialData), []) :=
  C16_read_none expected_ok Fail.allow rfl

theorem refused_reg : handleAttestation env registrar
    { regArgs with expectedOrigin := .many [] } [] = (.error (.lib .origin), []) :=
  (C04_empty_expectation (b := { authArgs with expectedOrigin := .many [] }) rfl rfl).1

example := C14_failed_registration refused_reg
example := C14_failed_authentication refused_auth
example := C15_registration_errors demo_ordinary demo_ordinary_registrar refused_reg
example := C15_authentication_errors demo_ordinary demo_ordinary_registrar refused_auth
example := C15_registration_any refused_reg
example := C15_authentication_any refused_auth

example := C16_refusing_registrar (env := env) (reg := full) (fun _ _ => by simp [full])
  (fun _ _ => by simp [full]) richRegArgs richAuthArgs ()

/-- A registrar whose reads raise. -/
def unreadable : Registrar Unit := { taking with
  getCredentialData := fun _ s => (.error .typeError, s) }

example : handleAssertion env unreadable richAuthArgs () = (.error (.lib .registration), ()) :=
  C16_read_raises origins_ok (by intro l hl; cases hl) rfl (by intro n hn; cases hn)

example : handleAssertion env taking { authArgs with allowCredentials := some [⟨[1]⟩] } () =
    (.error (.lib .credentialNotAllowed), ()) :=
  C54_not_allowed expected_ok (by
    intro h
    obtain ⟨c, hc, he⟩ := h _ rfl
    simp only [List.mem_singleton] at hc
    subst hc
    simp [authArgs, authCredential, credId] at he)

theorem richRegClient : ClientOk env richRegCdj "webauthn.create" challenge origins
    (some ⟨.PRESENT, some bindingId⟩) :=
  clientOk_of json (clientData_bound _ _ _) challengeText_ok origin_allowed (.withId _ _)

/-- User verification is required and the bit is not set. -/
example : handleAttestation env registrar { richRegArgs with requireUserVerification := true } [] =
    (.error (.lib .userVerification), []) := by
  refine C54_registration_error (cdj := richRegCdj) (ob := richAttObj) origins_ok rfl
    (.auth ⟨richRegAd, .NONE, .none⟩ richRegRaw _ richRegClient
      (noneObject_of (noneObject richRegRaw_length) (encodedAuthData_of codec richRegRaw_enc))
      (.userVerification (encodedAuthData_of codec richRegRaw_enc) (rpHash_enc richRegRaw_enc rfl)
        (flagSet_enc richRegRaw_enc (by decide)) rfl ?_))
  rintro ⟨f, hf, hb⟩
  obtain ⟨-, -, ⟨g, hg, he⟩, -⟩ := authDataOf_head (encodedAuthData_of codec richRegRaw_enc)
  rw [hg] at hf
  cases hf
  rw [he] at hb
  revert hb
  decide

/-- Of a Relying Party with no usable expected origin. -/
example := C54_bad_expected_origin (env := env) (reg := registrar) (s := [])
  (a := { richRegArgs with expectedOrigin := .one "ftp://example.com" })
  (fun h => not_origin (h.2 _ (by simp [originList])))

/-- The forged signature is a `VerificationError`. -/
example : (handleAssertion env taking forgedArgs ()).1 = .error (.lib .verification) := by
  obtain ⟨c, h1, h2, h3, ⟨o, h4, h5⟩, h6⟩ : ClientOk env richAuthCdj "webauthn.get" challenge
      origins (some ⟨.PRESENT, some bindingId⟩) :=
    clientOk_of json (clientData_bound _ _ _) challengeText_ok origin_allowed (.withId _ _)
  have bad : BadSignature env key [0] (richAuthRaw ++ env.sha256 richAuthCdj) := by
    refine .ecdsa _ _ _ _ pubKey _ _ _ _ key_of rfl .es256 ?_
    rw [ecdsaVerify_eq, check, if_neg]
    intro he
    have hl := congrArg List.length he
    have h : ∀ b, (sha b).length = 32 := sha_length
    simp [sign, h, Cbor.toBE_length, pubKey] at hl
  refine (C54_authentication_error_exact (a := forgedArgs) (cd := richStored 5) (s1 := ()) origins_ok
    (by intro l hl; cases hl) rfl rfl h1 h4 (encodedAuthData_of codec richAuthRaw_enc) (Or.inr bad)
    (fun _ => rfl) .verification).mpr ?_
  exact .verification { user with displayName := "Ada L." } rp richAuthAd (.given _ _ rfl nofun)
    (.registered _) ⟨c, h1, h2, h3, ⟨o, h4, h5⟩, h6⟩
    ⟨encodedAuthData_of codec richAuthRaw_enc, rpHash_enc richAuthRaw_enc rfl,
      flagSet_enc richAuthRaw_enc (by decide), (fun h => by cases h), exts_ok⟩ bad

/-! ## Statements that are not implemented -/

def packedStmt : Dict := [(.str "alg", .int (-7)), (.str "sig", .bytes [1, 2])]

def packedMap : Dict :=
  [(.str "fmt", .str "packed"), (.str "attStmt", .dict packedStmt), (.str "authData", .bytes regRaw)]

theorem packedMap_plain : Plain (.dict packedMap) := by
  refine .dict _ ?_ (by simp [packedMap]) ?_
  · intro kv hkv
    simp only [packedMap, List.mem_cons, List.not_mem_nil, or_false] at hkv
    rcases hkv with rfl | rfl | rfl <;> exact Or.inr ⟨_, rfl⟩
  · intro kv hkv
    simp only [packedMap, List.mem_cons, List.not_mem_nil, or_false] at hkv
    rcases hkv with rfl | rfl | rfl
    · exact .str _
    · refine .dict _ ?_ (by simp [packedStmt]) ?_
      · intro kv hkv
        simp only [packedStmt, List.mem_cons, List.not_mem_nil, or_false] at hkv
        rcases hkv with rfl | rfl <;> exact Or.inr ⟨_, rfl⟩
      · intro kv hkv
        simp only [packedStmt, List.mem_cons, List.not_mem_nil, or_false] at hkv
        rcases hkv with rfl | rfl
        · exact .int _
        · exact .bytes _
    · exact .bytes _

theorem packedMap_enc : ∃ b, Cbor.enc (.dict packedMap) = .ok b := by
  refine Cbor.enc_dict (by simp [packedMap]) fun kv hkv => ?_
  simp only [packedMap, List.mem_cons, List.not_mem_nil, or_false] at hkv
  rcases hkv with rfl | rfl | rfl
  · exact ⟨Cbor.enc_str (by decide), Cbor.enc_str (by decide)⟩
  · exact ⟨Cbor.enc_str (by decide), _, rfl⟩
  · exact ⟨Cbor.enc_str (by decide), Cbor.enc_bytes regRaw_length⟩

def packedArgs (ob : Bytes) : AttestationArgs :=
  { regArgs with credential := { regCredential with response := .attestation regCdj ob } }

example : ∃ ob e, handleAttestation env registrar (packedArgs ob) [] = (.error e, []) := by
  obtain ⟨ob, hob⟩ := packedMap_enc
  have := codec.roundTrip packedMap_plain hob []
  rw [List.append_nil] at this
  refine ⟨ob, C23_unimplemented_not_registered (o := ⟨regAd, .PACKED, .packed (.value .ES256) [1, 2]⟩)
    (raw := regRaw) rfl ⟨packedMap, [], packedStmt, this, lookup_iff.mpr rfl,
      encodedAuthData_of codec regRaw_enc, lookup_iff.mpr rfl, lookup_iff.mpr rfl, ?_⟩
    (by simp [Unimplemented])⟩
  rw [← parseAttStmt_ok_iff]
  rfl

/-! ## Origins -/

example : origin ∈ originList authArgs.expectedOrigin := by
  obtain ⟨text, d, ht, hd, -, -, ho, -⟩ : ClientDataText "webauthn.get" challengeText
    origin none authCdj := clientData_client rfl
  exact C37_accepted_listed_authentication demo_serialised ⟨_, _, _, serialises_example'⟩ rfl
    ⟨text, ht, json _ _ hd⟩ ho auth_ok'

/-! ## Parsers -/

example := C24_layout_offsets stream (C25_auth_data_round_trip codec richRegRaw_enc)
example := C26_padded stream (C25_auth_data_round_trip codec richRegRaw_enc) (t := [0]) (by simp)
example : parseAuthenticatorData env rpHash = .error (.lib .parser) :=
  C26_short (by rw [show rpHash.length = 32 from sha_length _]; decide)
example := C30_response_kind (d := sampleCredential) (rd := [(.str "clientDataJSON", .str "e30="),
  (.str "attestationObject", .str "oA==")]) rfl (lookup_iff.mpr rfl)

/-- The client data with the token binding. -/
example : ∃ cd tb, parseClientData env richRegCdj = .ok cd ∧ cd.tokenBinding = some tb ∧
    tb.id ≠ .none := by
  obtain ⟨text, d, ht, hd, h1, h2, h3, h4⟩ := clientData_bound "webauthn.create" challengeText origin
  have hj : ClientJson env richRegCdj d := ⟨text, ht, json _ _ hd⟩
  have hp := C31_client_data_exact.mpr
    (⟨d, hj, h1, h2, h3, h4⟩ : ClientDataOf env richRegCdj ⟨_, _, _, some binding⟩)
  exact ⟨_, binding, hp, rfl, (C31_token_binding hp hj).2 _ rfl rfl⟩

/-! ## Keys -/

example := C45_conversion_injective (env := env) (parseCoseKeyDict_ok_iff.mpr keyMap_key)
  (parseCoseKeyDict_ok_iff.mpr keyMap_key) (C45_conversion_exact.mpr key_of)
  (C45_conversion_exact.mpr key_of)

example : verify env (.okp { kty := .value .OKP, alg := some (.value .EDDSA) } (.value .ED25519) [5]) [] [] =
    .error (.lib .verification) := by
  refine C46_bad_eddsa (pk := .ed25519 [5]) (C45_conversion_exact.mp rfl) ?_
  show check (.ed25519 [5]) [] [] = .error .invalidSignature
  rw [check, if_neg]
  simp [sign]

/-! ## Builders -/

example := C43_setter {} (.rp none)
example := C43_creation {} _ [.rp (some rp), .timeout (some 5)] rfl user challenge
example := C43_request {} _ [.rpId (some "example.com")] rfl challenge none

end WebAuthn.Demo
