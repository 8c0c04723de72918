import Verif.Props.Instances
import Verif.Props.AndroidDemo
import Verif.Props.HeapLater
import Verif.Props.Interaction
import Verif.Props.LockedBackend
import Verif.Props.Outcome
import Verif.Props.Optimised
import Verif.Props.ExtensionsCeremony
import Verif.Props.KeyUse
import Verif.Props.Choosy
import Verif.Props.Approval
import Verif.Props.TypesJson
import Verif.Props.ClientText
import Verif.Props.RepairedOrigin

/-!
# Further theorems, applied to the concrete worlds
-/

namespace WebAuthn.Demo

open WebAuthn WebAuthn.Spec WebAuthn.Props

/-! ## Ceremonies -/

/-- The accepted login makes two calls of the registrar, … -/
example : ∃ cd s1 user rp ad, ExpectedOk env origins ∧ AllowOk richAuthArgs.allowCredentials credId ∧
    registrar.getCredentialData credId [(credId, richStored 5)] = (.ok (some cd), s1) ∧
    AssertionOk env richAuthArgs cd user rp ad ∧
    (handleAssertion env (recording registrar) richAuthArgs ([(credId, richStored 5)], [])).2 =
      ((registrar.registerAssertion ⟨richAuthArgs.credential, ad, user, rp⟩ s1).2,
        [.read credId, .assertion ⟨richAuthArgs.credential, ad, user, rp⟩]) := by
  rcases C14_authentication_calls (env := env) (reg := registrar) (a := richAuthArgs) (s := [(credId, richStored 5)]) []
    with ⟨⟨e, he⟩, -⟩ | h
  · obtain ⟨h1, h2, cd, s1, u, rp, ad, h3, h4, h5⟩ := assertion_accepts.mp auth_ok
    have : handleAssertion env (recording registrar) richAuthArgs ([(credId, richStored 5)], []) = (.ok (), _, _) :=
      assertion_accepts.mpr ⟨h1, h2, cd, (s1, [.read credId]), u, rp, ad,
        by simp only [recording, h3]; rfl, h4, by simp only [recording, h5]; rfl⟩
    rw [this] at he
    cases he
  · exact h

/-- … and the accepted registration one. -/
example : ∃ r, (handleAttestation env (recording registrar) richRegArgs ([], [])).2.2 = [.attestation r] := by
  rcases C14_registration_calls (env := env) (reg := registrar) (a := richRegArgs) (s := []) []
    with ⟨⟨e, he⟩, -⟩ | ⟨o, raw, -, -, h⟩
  · obtain ⟨log, h⟩ := recorded_reg
    rw [h] at he
    cases he
  · exact ⟨_, congrArg Prod.snd h⟩

example : handleAttestation env taking U2F.args () = (.error (.lib .internal), ()) :=
  C19_u2f_refused expected_ok rfl U2F.response_ok rfl U2F.valid

example : ∃ s', Repaired.handleAttestation false env taking U2F.args () = (.ok (), s') :=
  C19_repaired_supported_formats expected_ok rfl U2F.response_ok (.inr (.inl ⟨_, _, _, rfl, U2F.valid⟩)) fun _ => ⟨(), rfl⟩

example : ∃ (log : List Call) (r : AttestationRecord) (acd : AttestedCredentialData), log = [.attestation r] ∧ r.credential = U2F.args.credential ∧
    r.att.authData.attested = some acd ∧ acd.credentialId = r.credential.rawId := by
  have h : Repaired.handleAttestation true env (recording taking) U2F.args ((), []) = (.ok (), (), _) :=
    C18_repaired_accepts_exactly.mpr ⟨expected_ok, U2F.att, regRaw, regCdj, U2F.obj, .BASIC, some [U2F.cert], rfl,
      U2F.response_ok, fun _ => ⟨attested, rfl, rfl⟩, .fidoU2F _ _ _ U2F.valid, rfl⟩
  exact ⟨_, C20_repaired_raw_id_attested h⟩

example : attest env (.packedX509 (.value .ES256) [1] [[2]]) (.attObj U2F.att) regRaw [] =
    .error (.lib .unimplemented) := C23_unimplemented_refused (by simp [Unimplemented]) _ _ _

example := C53_authentication_crash (env := env) (reg := registrar) richAuthArgs [(credId, richStored 5)] 1
example := C53_registration_crash (env := env) (reg := registrar) richRegArgs [] 1

example : (assertionProg env richAuthArgs).steps registrar 2 [(credId, richStored 5)] =
    (.done (.ok ()), [(credId, richStored 4), (credId, richStored 5)]) := by
  rw [C53_authentication_uninterrupted, auth_ok]

example : (attestationProg env richRegArgs).steps registrar 1 [] = (.done (.ok ()), [(credId, stored 5)]) := by
  rw [C53_registration_uninterrupted, reg_ok]

/-- The outcome of the login, and no other. -/
example : AuthenticationOutcome env registrar richAuthArgs [(credId, richStored 5)] (.ok ())
    [(credId, richStored 4), (credId, richStored 5)] ∧
    ∀ r s', AuthenticationOutcome env registrar richAuthArgs [(credId, richStored 5)] r s' → r = .ok () := by
  have h := C60_authentication.mp auth_ok
  obtain ⟨o, ho, hu⟩ := C60_authentication_one env registrar richAuthArgs [(credId, richStored 5)]
  refine ⟨h, fun r s' h' => ?_⟩
  have := (hu (r, s') h').trans (hu (_, _) h).symm
  exact congrArg Prod.fst this

/-! ## Keys and parsers -/

example : ∃ b, coseKey env Iv.key = .ok b ∧ parseCoseKeyBytes env b = .ok (asStored Iv.key) ∧ asStored Iv.key ≠ Iv.key :=
  ⟨_, rfl, C27_stored_key codec ⟨_, Iv.parses⟩ rfl, by decide⟩

example := C28_cose_key_fields (parseCoseKeyDict_ok_iff.mpr keyMap_key)

example := (C30_credential_exact sampleCredential).1 _ |>.mp rfl

example : ExtensionsOf extMap exts := (C32_extensions_exact.1 _).mp ((C32_extensions_exact.1 _).mpr extMap_exts)

example := C33_statement_variant (fmt := .PACKED) (d := [(.str "alg", .int (-7)), (.str "sig", .bytes [1]),
  (.str "x5c", .list [.bytes [2]])]) (s := .packedX509 (.value .ES256) [1] [[2]]) rfl (Or.inl rfl)

example : parseAttestationObject env (U2F.obj ++ [0, 1, 2]) = .ok (U2F.att, regRaw) :=
  C35_trailing_data_ignored stream (parseAttestationObject_ok_iff.mpr U2F.obj_of) _

example : validate (.okp { kty := .value .OKP, alg := some (.value .ES256) } (.value .ED25519) []) =
    .error (.lib .validation) := rfl

example := C44_validate_error (k := .okp { kty := .value .OKP, alg := some (.value .ES256) } (.value .ED25519) []) rfl
  ⟨rfl, by simp⟩

/-! ## Origins -/

example := C36_accepted_origins (env := env) (C36_serialised_origins serialises_example)
example := C37_compared (env := env) (C36_serialised_origins serialises_example) (C36_serialised_origins serialises_example')

/-! ## Replays -/

example (sched : List Bool) (req : Bool → Request) (h : ∀ i, req i = .authentication authArgs) :
    ¬ (((⟨fun i => prog env (req i), [(credId, stored 1)]⟩ : System Bool Store).exec comparingCounters sched).threads true =
        .done (.ok ()) ∧
      ((⟨fun i => prog env (req i), [(credId, stored 1)]⟩ : System Bool Store).exec comparingCounters sched).threads false =
        .done (.ok ())) := by
  rintro ⟨h1, h2⟩
  obtain ⟨m, n, hm, hn, hne⟩ := C48_distinct_counters_partial demo_compares req _ sched (by decide) (h true) (h false) rfl h1 h2
  exact hne (hasCounter_unique hm hn)

end WebAuthn.Demo
