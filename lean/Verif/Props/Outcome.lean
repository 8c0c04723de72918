import Verif.Lemmas.Outcome
import Verif.Props.Instances

/-!
# C60, C61: every outcome

The ceremonies and the parsers, for all inputs, all answers of the dependencies
(including exceptions that are not documented) and all behaviours of the
registrar.
-/

namespace WebAuthn.Props

open WebAuthn WebAuthn.Spec

variable {σ : Type} {env : Env} {reg : Registrar σ}

/-! ## C60 -/

/-- C60: result and final state of a registration are exactly those of the
specification. -/
theorem C60_registration {a : AttestationArgs} {s s' : σ} {r : Py Unit} :
    handleAttestation env reg a s = (r, s') ↔ RegistrationOutcome env reg a s r s' :=
  attestation_outcome

/-- C60: result and final state of an authentication are exactly those of the
specification. -/
theorem C60_authentication {a : AssertionArgs} {s s' : σ} {r : Py Unit} :
    handleAssertion env reg a s = (r, s') ↔ AuthenticationOutcome env reg a s r s' :=
  assertion_outcome

/-- C60: the specification gives every registration exactly one outcome. -/
theorem C60_registration_one (env : Env) (reg : Registrar σ) (a : AttestationArgs) (s : σ) :
    ∃! o : Py Unit × σ, RegistrationOutcome env reg a s o.1 o.2 :=
  ⟨handleAttestation env reg a s, attestation_outcome.mp rfl,
    fun _ h => (attestation_outcome.mpr h).symm⟩

/-- C60: the specification gives every authentication exactly one outcome. -/
theorem C60_authentication_one (env : Env) (reg : Registrar σ) (a : AssertionArgs) (s : σ) :
    ∃! o : Py Unit × σ, AuthenticationOutcome env reg a s o.1 o.2 :=
  ⟨handleAssertion env reg a s, assertion_outcome.mp rfl,
    fun _ h => (assertion_outcome.mpr h).symm⟩

/-! ## C61 -/

/-- C61: `parse_origin`. -/
theorem C61_origin {s : String} {x : Exc} :
    parseOrigin env s = .error x ↔ OriginRefused env s x := parseOrigin_error_iff

/-- C61: `parse_client_data`. -/
theorem C61_client_data {cdj : Bytes} {x : Exc} :
    parseClientData env cdj = .error x ↔ ClientDataRefused env cdj x :=
  parseClientData_refused_iff

/-- C61: `parse_authenticator_data`. -/
theorem C61_authenticator_data {raw : Bytes} {x : Exc} :
    parseAuthenticatorData env raw = .error x ↔ AuthDataRefused env raw x :=
  parseAuthenticatorData_error_iff

/-- C61: `parse_attestation_object`. -/
theorem C61_attestation_object {b : Bytes} {x : Exc} :
    parseAttestationObject env b = .error x ↔ AttObjRefused env b x :=
  parseAttestationObject_error_iff

/-- C61: `cryptography_public_key`. -/
theorem C61_public_key {k : CPK} {x : Exc} :
    cryptographyPublicKey env k = .error x ↔ KeyRefused env k x :=
  cryptographyPublicKey_error_iff

/-- C61: `verify`. -/
theorem C61_signature {k : CPK} {sig data : Bytes} {x : Exc} :
    verify env k sig data = .error x ↔ SignatureRefused env k sig data x :=
  verify_error_iff

end WebAuthn.Props

/-! ## Examples -/

namespace WebAuthn.Demo

open WebAuthn WebAuthn.Spec WebAuthn.Props

/-- A registrar that is interrupted (`KeyboardInterrupt`) in every call, after the
state was changed. -/
def interrupted : Registrar Nat where
  registerAttestation := fun _ n => (.error (.base 1), n + 1)
  registerAssertion := fun _ n => (.error (.base 1), n + 1)
  getCredentialData := fun _ n => (.error (.base 1), n + 1)

/-- An accepted response; the interrupt reaches the caller, the state is what the
registrar left. -/
example : handleAttestation env interrupted richRegArgs 3 = (.error (.base 1), 4) := by
  obtain ⟨h1, o, raw, h2, h3, -⟩ := attestation_accepts.mp reg_ok
  exact C60_registration.mpr
    (.written o raw _ _ _ h1 h2 h3 rfl (.passes _ (by simp [IsInstance, classesOf])))

/-- The same in the look-up of an authentication. -/
example : handleAssertion env interrupted richAuthArgs 3 = (.error (.base 1), 4) :=
  C60_authentication.mpr (.notFound _ _ _ origins_ok (by intro l hl; cases hl) rfl
    (.passes _ (by simp [IsInstance, classesOf])))

/-- A valid FIDO U2F registration ends in `InternalError`: the attester raises
`AttributeError`. -/
example : handleAttestation env registrar U2F.args [] = (.error (.lib .internal), []) :=
  C60_registration.mpr (.refused .attributeError _
    (.statement U2F.att regRaw _ expected_ok U2F.response_ok (.u2f _ _ U2F.cert 7 1 U2F.load_cert rfl))
    (.internal (by simp [IsInstance, classesOf]) (by simp [IsInstance, classesOf])))

/-- An assertion response handed to the registration. -/
example : handleAttestation env registrar
    { regArgs with credential := { regCredential with
        response := .assertion regCdj authRaw signature none } } [] =
    (.error (.lib .internal), []) :=
  C60_registration.mpr (.refused .attributeError _
    (.wrongResponse regCdj authRaw signature none expected_ok rfl
      (clientOk_of json (clientData_client rfl) challengeText_ok
        (originAllowed_of expected_ok (by simp [originList, regArgs])) .none))
    (.internal (by simp [IsInstance, classesOf]) (by simp [IsInstance, classesOf])))

/-- An expected origin with a bad port: `urllib` raises `ValueError`, which is no
`OriginError`. -/
theorem bad_port : UrlRaises env "https://example.com:https" := by
  refine ⟨⟨"https".toList, "example.com:https".toList, rfl⟩, "https://example.com:https".toList,
    "https".toList, "example.com:https".toList, [], ⟨[], _, rfl, nofun, ?_, ?_⟩, ?_, by decide, nofun,
    Or.inr ⟨by decide, Or.inr rfl, Or.inl rfl, ?_⟩⟩
  · unfold Blank
    decide
  · decide
  · refine .some "https".toList "https".toList _ ⟨⟨'h', "ttps".toList, rfl, by decide⟩, by decide⟩ ?_
    unfold LowerCase
    decide
  · rw [← urlPort_error_iff]
    decide

example : handleAttestation env registrar
    { regArgs with expectedOrigin := .many [origin, "https://example.com:https"] } [] =
    (.error (.lib .internal), []) := by
  refine C60_registration.mpr (.refused .valueError _
    (.expected _ (.bad [origin] _ [] _ rfl ?_ (.raises bad_port)))
    (.internal (by simp [IsInstance, classesOf]) (by simp [IsInstance, classesOf])))
  intro t ht
  rw [List.mem_singleton] at ht
  exact ⟨_, ht ▸ origin_ok⟩

example : parseOrigin env "https://example.com:https" = .error .valueError :=
  C61_origin.mpr (.raises bad_port)

/-- A byte that is no UTF-8. -/
example : parseClientData env [0xff] = .error (.lib .decoding) := by
  refine C61_client_data.mpr (.notText fun t ht => ?_)
  rw [← utf8Decode_ok_iff] at ht
  have : utf8Decode [0xff] = .error .unicodeDecodeError := by decide
  rw [this] at ht
  cases ht

/-- Flags that announce extensions, and no bytes for them. -/
example : parseAuthenticatorData env (rpHash ++ [0x85] ++ [0, 0, 0, 4]) = .error (.lib .decoding) := by
  refine C61_authenticator_data.mpr (.extensions 0x85 [] [] none _
    ⟨rpHash, [0, 0, 0, 4], by simp, sha_length _, rfl⟩ ⟨by decide, rfl⟩ (by decide)
    (.notCbor .cborDecodeEOF _ rfl ⟨.lib .decoding, .caught .CBORDecodeError (by simp)
      (by simp [IsInstance, classesOf]), .passes (by simp [IsInstance, classesOf])⟩))

/-- A CBOR array is no attestation object. -/
example : parseAttestationObject env [0x80] = .error (.lib .parser) :=
  C61_attestation_object.mpr (.notObject (.list []) [] rfl (by rintro raw fmt stmt ⟨d, hd, -⟩; cases hd))

/-- A point that is not on the curve. -/
def badKey : CPK := .ec2 { kty := .value .EC2, alg := some (.value .ES256) } [0] [0] (.value .P_256)

theorem badKey_refused : KeyRefused env badKey (.lib .publicKeyConversion) :=
  .point _ _ _ _ .SECP256R1 0 0 .valueError _ .p256 (bigEndian_of rfl) (bigEndian_of rfl) rfl
    (.caught .ValueError (by simp) (by simp [IsInstance, classesOf]))

example : cryptographyPublicKey env badKey = .error (.lib .publicKeyConversion) :=
  C61_public_key.mpr badKey_refused

example : verify env badKey [] [] = .error (.lib .publicKeyConversion) :=
  C61_signature.mpr (.key _ _ _ _ badKey_refused)

end WebAuthn.Demo
