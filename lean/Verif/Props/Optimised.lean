import Verif.Spec.Choosy
import Verif.Lemmas.Optimised
import Verif.Props.FlaskDemo
import Verif.Props.Options

/-!
# No check of a ceremony rests on an assertion (C68)

`python -O` does not execute assertions.  `WebAuthn.Optimised` is the package so executed.
-/

namespace WebAuthn.Props

open WebAuthn WebAuthn.Spec

/-- C68: a registration has the same result and leaves the same state with assertions disabled,
whatever the registrar does. -/
theorem C68_registration {σ : Type} (env : Env) (reg : Registrar σ) (a : AttestationArgs) (s : σ) :
    Optimised.handleAttestation env reg a s = handleAttestation env reg a s :=
  optimised_handleAttestation env (fun _ _ => ⟨.rfl, rfl⟩) a s

/-- C68: and so has an authentication. -/
theorem C68_authentication {σ : Type} (env : Env) (reg : Registrar σ) (a : AssertionArgs) (s : σ) :
    Optimised.handleAssertion env reg a s = handleAssertion env reg a s :=
  optimised_handleAssertion env reg a s

/-- C68: the parsers return the same or raise the same exception. -/
theorem C68_parsers (env : Env) (b : Bytes) :
    Optimised.parseAuthenticatorData env b = parseAuthenticatorData env b ∧
    Optimised.parseAttestationObject env b = parseAttestationObject env b :=
  ⟨congrFun (optimised_parseAuthenticatorData env) b,
    congrFun (optimised_parseAttestationObject env) b⟩

/-- C68: `attest`, called on its own, accepts the same statements with the same result, and
raises the same errors of the library. -/
theorem C68_attest (env : Env) (stmt : AttStmt) (o : AttObjArg) (a h : Bytes) :
    (∀ r, Optimised.attest env stmt o a h = .ok r ↔ attest env stmt o a h = .ok r) ∧
    ∀ e, Optimised.attest env stmt o a h = .error (.lib e) ↔ attest env stmt o a h = .error (.lib e) :=
  ⟨(alike_attest env stmt o a h).ok_iff, (alike_attest env stmt o a h).lib_iff⟩

/-- C68: the same of `verify`. -/
theorem C68_verify (env : Env) (k : CPK) (sig data : Bytes) :
    (∀ u, Optimised.verify env k sig data = .ok u ↔ verify env k sig data = .ok u) ∧
    ∀ e, Optimised.verify env k sig data = .error (.lib e) ↔ verify env k sig data = .error (.lib e) :=
  ⟨(alike_verify env k sig data).ok_iff, (alike_verify env k sig data).lib_iff⟩

/-- C68: the same of `cose_key`. -/
theorem C68_cose_key (env : Env) (k : CPK) :
    (∀ b, Optimised.coseKey env k = .ok b ↔ coseKey env k = .ok b) ∧
    ∀ e, Optimised.coseKey env k = .error (.lib e) ↔ coseKey env k = .error (.lib e) :=
  ⟨(alike_coseKey env k).ok_iff, (alike_coseKey env k).lib_iff⟩

/-- C68: `validate`, called on its own, does rest on an assertion: it alone compares the key type
with the class.  It tells the same of every key that was parsed. -/
theorem C68_validate :
    (∀ d k, CoseKeyOf d k → Optimised.validate k = validate k) ∧
    (∀ k, Optimised.validate k = .ok () → ¬ KeyConsistent k →
      ∃ b x y crv, k = .ec2 b x y crv ∧ b.kty.id ≠ .EC2 ∨ k = .okp b crv x ∧ b.kty.id ≠ .OKP) ∧
    ∃ k, Optimised.validate k = .ok () ∧ ¬ KeyConsistent k := by
  refine ⟨fun d k h => optimised_validate h, fun k h hk => ?_, ?_⟩
  · cases k with
    | base b => cases h
    | ec2 b x y crv =>
      refine ⟨b, x, y, crv, .inl ⟨rfl, fun hid => hk ?_⟩⟩
      rw [← validate_ok_iff (u := ())]
      cases ha : b.alg with
      | none =>
        simp only [Optimised.validate, ha, bind_ok_iff, reduceCtorEq, and_false, exists_false] at h
      | some alg => simpa [Optimised.validate, validate, ha, hid, pyAssert] using h
    | okp b crv x =>
      refine ⟨b, x, x, crv, .inr ⟨rfl, fun hid => hk ?_⟩⟩
      rw [← validate_ok_iff (u := ())]
      cases ha : b.alg with
      | none =>
        simp only [Optimised.validate, ha, bind_ok_iff, reduceCtorEq, and_false, exists_false] at h
      | some alg => simpa [Optimised.validate, validate, ha, hid, pyAssert] using h
  · exact ⟨.ec2 { kty := .value .OKP, alg := some (.value .ES256) } [] [] (.value .P_256), rfl,
      fun h => nomatch h.1⟩

/-- C68: without assertions `validate` raises `AttributeError` exactly for keys with a curve of their
class and no algorithm, and nothing but that, `ValidationError` and `UnimplementedError`. -/
theorem C68_validate_raises (k : CPK) :
    (Optimised.validate k = .error .attributeError ↔ (baseOf k).alg = none ∧
      ((∃ b x y crv, k = .ec2 b x y crv ∧ (crv.id = .P_256 ∨ crv.id = .P_384 ∨ crv.id = .P_521)) ∨
        ∃ b crv x, k = .okp b crv x ∧ (crv.id = .ED25519 ∨ crv.id = .ED448))) ∧
    ∀ e, Optimised.validate k = .error e → e = .attributeError ∨ e = .lib .validation ∨
      e = .lib .unimplemented := by
  cases k with
  | base b => exact ⟨by simp [Optimised.validate, raise], fun e h => by cases h; simp⟩
  | ec2 b x y crv =>
    rcases hb : b.alg with _ | alg
    · constructor
      · simp only [Optimised.validate, hb, bind_error_iff, require_error_iff, require_ok_iff]
        simp [baseOf, hb, or_assoc]
      · intro e
        simp only [Optimised.validate, hb, bind_error_iff, require_error_iff, Except.error.injEq]
        rintro (⟨-, rfl⟩ | ⟨-, -, rfl⟩) <;> simp
    · constructor
      · simp only [Optimised.validate, hb, bind_error_iff, require_error_iff, require_ok_iff]
        simp [baseOf, hb]
      · intro e
        simp only [Optimised.validate, hb, bind_error_iff, require_error_iff]
        rintro (⟨-, rfl⟩ | ⟨-, -, -, rfl⟩) <;> simp
  | okp b crv x =>
    rcases hb : b.alg with _ | alg
    · constructor
      · simp only [Optimised.validate, hb, bind_error_iff, require_error_iff, require_ok_iff]
        simp [baseOf, hb]
      · intro e
        simp only [Optimised.validate, hb, bind_error_iff, require_error_iff, Except.error.injEq]
        rintro (⟨-, rfl⟩ | ⟨-, -, rfl⟩) <;> simp
    · constructor
      · simp only [Optimised.validate, hb, bind_error_iff, require_error_iff, require_ok_iff]
        simp [baseOf, hb]
      · intro e
        simp only [Optimised.validate, hb, bind_error_iff, require_error_iff]
        rintro (⟨-, rfl⟩ | ⟨-, -, -, rfl⟩) <;> simp

/-- C68: the assertions of the setters are not needed: what they refuse, `build` refuses. -/
theorem C68_setters :
    (∀ (b : CreationBuilder) s b', b.set s = .ok b' → Optimised.setCreation b s = .ok b') ∧
    (∀ (b : CreationBuilder) s e, b.set s = .error e → ∃ b', Optimised.setCreation b s = .ok b' ∧
      ∀ user challenge, Optimised.buildCreation b' user challenge = .error (.lib .builder)) ∧
    (∀ (b : RequestBuilder) s b', b.set s = .ok b' → Optimised.setRequest b s = .ok b') ∧
    ∀ (b : RequestBuilder) s e, b.set s = .error e → ∃ b', Optimised.setRequest b s = .ok b' ∧
      ∀ challenge allow, Optimised.buildRequest b' challenge allow = .error (.lib .builder) := by
  refine ⟨?_, ?_, ?_, ?_⟩
  · rintro b ((_ | v) | (_ | v) | v | v | v | (_ | v) | v) b' h <;>
      first | exact h | exact absurd h (by simp [CreationBuilder.set])
  · rintro b ((_ | v) | (_ | v) | v | v | v | (_ | v) | v) e h <;>
      first
      | (exfalso; simp [CreationBuilder.set] at h; done)
      | (refine ⟨_, rfl, fun user challenge => ?_⟩
         cases h1 : b.rp <;> cases h2 : b.pubKeyCredParams <;>
          simp [Optimised.buildCreation, h1, h2, raise])
  · rintro b ((_ | v) | v | v | v | v) b' h <;>
      first | exact h | exact absurd h (by simp [RequestBuilder.set])
  · rintro b ((_ | v) | v | v | v | v) e h <;>
      first
      | (exfalso; simp [RequestBuilder.set] at h; done)
      | exact ⟨_, rfl, fun _ _ => rfl⟩

/-- C68: `build` with a user and a challenge does not rest on assertions. -/
theorem C68_build (b : CreationBuilder) (r : RequestBuilder) (u : UserEntity) (c : Bytes)
    (allow : Option (PySeq FullDescriptor)) :
    (∀ o, b.build (some u) (some c) = .ok o →
      Optimised.buildCreation b (some u) (some c) = .ok o.toObj) ∧
    (∀ e, b.build (some u) (some c) = .error e ↔
      Optimised.buildCreation b (some u) (some c) = .error e) ∧
    (∀ o, r.build (some c) allow = .ok o →
      Optimised.buildRequest r (some c) allow = .ok o.toObj) ∧
    ∀ e, r.build (some c) allow = .error e ↔
      Optimised.buildRequest r (some c) allow = .error e := by
  rw [optimised_buildCreation, optimised_buildRequest]
  refine ⟨fun o h => by rw [h]; rfl, fun e => ?_, fun o h => by rw [h]; rfl, fun e => ?_⟩
  · cases b.build (some u) (some c) <;> simp [error_bind, ok_bind, pure_eq_ok]
  · cases r.build (some c) allow <;> simp [error_bind, ok_bind, pure_eq_ok]

/-- C68: without a user or a challenge it does: options without these members are built and
sent to the client. -/
theorem C68_build_incomplete : ∃ b u, (∀ c, b.build none c = .error .assertionError) ∧
    b.build (some u) none = .error .assertionError ∧
    (∃ o pk, Optimised.buildCreation b none (some [1]) = .ok o ∧
      jsonify true o = .ok (.dict [(.str "publicKey", .dict pk)]) ∧
      ∀ v, (.str "user", v) ∉ pk) ∧
    ∃ o pk, Optimised.buildCreation b (some u) none = .ok o ∧
      jsonify true o = .ok (.dict [(.str "publicKey", .dict pk)]) ∧
      ∀ v, (.str "challenge", v) ∉ pk := by
  refine ⟨Flask.creationBuilder, Demo.user, fun c => rfl, rfl,
    ⟨_, [(.str "rp", .dict [(.str "name", .str "localhost"), (.str "id", .str "localhost")]),
      (.str "challenge", .str "AQ=="),
      (.str "pubKeyCredParams", .list [.dict [(.str "type", .str "public-key"),
        (.str "alg", .int (-7))]]),
      (.str "timeout", .int 60000), (.str "attestation", .str "none")], rfl, rfl, ?_⟩,
    _, [(.str "rp", .dict [(.str "name", .str "localhost"), (.str "id", .str "localhost")]),
      (.str "user", .dict [(.str "name", .str "ada"), (.str "id", .str "dQE="),
        (.str "displayName", .str "Ada")]),
      (.str "pubKeyCredParams", .list [.dict [(.str "type", .str "public-key"),
        (.str "alg", .int (-7))]]),
      (.str "timeout", .int 60000), (.str "attestation", .str "none")], rfl, rfl, ?_⟩ <;>
    intro v hv <;> simp at hv

/-! ## Concrete cases -/

/-- The exceptions inside differ: a key of class EC2 with the algorithm EdDSA. -/
example : verify Demo.env (.ec2 { kty := .value .EC2, alg := some (.value .EDDSA) } Demo.x Demo.y
      (.value .P_256)) [] [] = .error .assertionError ∧
    Optimised.verify Demo.env (.ec2 { kty := .value .EC2, alg := some (.value .EDDSA) } Demo.x Demo.y
      (.value .P_256)) [] [] = .error .keyError := ⟨rfl, rfl⟩

/-- The registration of the concrete case. -/
example (s : Demo.Store) (hs : Demo.lookup s Demo.credId = none) :
    Optimised.handleAttestation Demo.env Demo.registrar Demo.regArgs s =
      (.ok (), (Demo.credId, Demo.stored 1) :: s) := by
  rw [C68_registration]
  exact Demo.registration_ok s hs

end WebAuthn.Props

namespace WebAuthn.Flask

/-- C68: the example application answers every request in the same way. -/
theorem C68_application (app : App) (e : Event) (db : Db) :
    Optimised.step app e db = step app e db :=
  optimised_step app e db

/-- Ada logs in, with assertions disabled. -/
example : (Optimised.step Run.app Run.e4 (run Run.app [Run.e1, Run.e2, Run.e3])).1 = success := by
  rw [C68_application, ← Run.reply4, reply]

end WebAuthn.Flask
