import Verif.Props.Strictness
import Verif.Props.Outcome
import Verif.Props.ExtensionsCeremony

/-!
# Stricter and looser expectations, concretely (C87)
-/

namespace WebAuthn.Demo

open WebAuthn.Spec WebAuthn.Props

theorem other_origin : OriginOf env "https://other.example" ⟨"https", "other.example", 443⟩ :=
  parseOrigin_ok_iff.mp rfl

theorem both_ok : ExpectedOk env (.many ["https://other.example", origin]) := by
  refine ⟨by simp [originList], fun s hs => ?_⟩
  simp only [originList, List.mem_cons, List.not_mem_nil, or_false] at hs
  rcases hs with rfl | rfl
  · exact ⟨_, other_origin⟩
  · exact ⟨_, origin_ok⟩

theorem other_ok : ExpectedOk env (.many ["https://other.example"]) := by
  refine ⟨by simp [originList], fun s hs => ?_⟩
  simp only [originList, List.mem_singleton] at hs
  subst hs
  exact ⟨_, other_origin⟩

theorem many_ok : ExpectedOk env (.many [origin]) := by
  refine ⟨by simp [originList], fun s hs => ?_⟩
  simp only [originList, List.mem_singleton] at hs
  subst hs
  exact ⟨_, origin_ok⟩

/-- Looser expectations about a registration: one more origin, no user verification. -/
example (s : Store) (hs : lookup s credId = none) :
    handleAttestation env registrar { regArgs with
      expectedOrigin := .many ["https://other.example", origin], requireUserVerification := false } s =
    (.ok (), (credId, stored 1) :: s) := by
  refine C87_registration_looser ?_ both_ok (registration_ok s hs)
  refine ⟨rfl, rfl, rfl, rfl, rfl, fun t ht o ho => ⟨t, ?_, ho⟩, nofun, nofun⟩
  simp only [originList, regArgs, List.mem_singleton] at ht
  subst ht
  simp [originList]

/-- Looser expectations about a login: one more origin, any credential, clones ignored. -/
example (s : Store) : handleAssertion env registrar { authArgs with
      expectedOrigin := .many ["https://other.example", origin], allowCredentials := none,
      ignoreCloneError := true } ((credId, stored 1) :: s) =
    (.ok (), (credId, stored 2) :: (credId, stored 1) :: s) := by
  refine C87_login_looser ?_ both_ok (authentication_ok s)
  refine ⟨rfl, rfl, rfl, rfl, rfl, fun t ht o ho => ⟨t, ?_, ho⟩, nofun, id, nofun, nofun⟩
  simp only [originList, authArgs, List.mem_singleton] at ht
  subst ht
  simp [originList]

/-- A repeated origin, and allowed credentials in another order. -/
example (s : Store) : handleAssertion env registrar { authArgs with
      expectedOrigin := .many [origin, origin], allowCredentials := some [⟨credId⟩, ⟨[1]⟩, ⟨credId⟩] } s =
    handleAssertion env registrar authArgs s := by
  have twice : ExpectedOk env (.many [origin, origin]) := expectedOk_append many_ok many_ok
  refine C87_login_same ⟨rfl, rfl, rfl, rfl, rfl, ?_, ?_, id, nofun, id⟩ ⟨rfl, rfl, rfl, rfl, rfl, ?_, ?_,
    id, nofun, id⟩ twice expected_ok
  · intro t ht o ho
    simp only [originList, List.mem_cons, List.not_mem_nil, or_false, or_self] at ht
    subst ht
    exact ⟨origin, List.mem_singleton.mpr rfl, ho⟩
  · rintro _ ⟨⟩
    refine ⟨_, rfl, fun c hc => ⟨c, ?_, rfl⟩⟩
    simp only [List.mem_cons, List.not_mem_nil, or_false] at hc ⊢
    rcases hc with rfl | rfl | rfl <;> simp
  · intro t ht o ho
    simp only [originList, authArgs, List.mem_singleton] at ht
    subst ht
    exact ⟨origin, by simp [originList], ho⟩
  · rintro _ ⟨⟩
    refine ⟨_, rfl, fun c hc => ⟨c, ?_, rfl⟩⟩
    simp only [List.mem_cons, List.not_mem_nil, or_false] at hc ⊢
    rcases hc with rfl | rfl <;> simp

/-- A repeated origin in a registration. -/
example (s : Store) : handleAttestation env registrar { regArgs with
      expectedOrigin := .many [origin, origin], expectedExtensions := some [] } s =
    handleAttestation env registrar regArgs s := by
  have twice : ExpectedOk env (.many [origin, origin]) := expectedOk_append many_ok many_ok
  refine C87_registration_same ⟨rfl, rfl, rfl, rfl, rfl, ?_, id, nofun⟩ ⟨rfl, rfl, rfl, rfl, rfl, ?_,
    id, ?_⟩ twice expected_ok
  · intro t ht o ho
    simp only [originList, List.mem_cons, List.not_mem_nil, or_false, or_self] at ht
    subst ht
    exact ⟨origin, List.mem_singleton.mpr rfl, ho⟩
  · intro t ht o ho
    simp only [originList, regArgs, List.mem_singleton] at ht
    subst ht
    exact ⟨origin, by simp [originList], ho⟩
  · rintro _ ⟨⟩ i hi
    cases hi

/-- Of two origins, the one of the client data is what counts. -/
example (s : Store) :
    handleAssertion env registrar { authArgs with expectedOrigin := .many ["https://other.example", origin] }
      ((credId, stored 1) :: s) = (.ok (), (credId, stored 2) :: (credId, stored 1) :: s) := by
  refine (C87_login_origins (l := ["https://other.example"]) (m := [origin]) other_ok many_ok).mpr (Or.inr ?_)
  refine C87_login_looser ?_ many_ok (authentication_ok s)
  refine ⟨rfl, rfl, rfl, rfl, rfl, fun t ht o ho => ⟨t, ht, ho⟩, fun l hl => ⟨l, hl, fun c hc => ⟨c, hc, rfl⟩⟩,
    id, nofun, id⟩

/-- The same in a registration. -/
example (s : Store) (hs : lookup s credId = none) :
    handleAttestation env registrar { regArgs with expectedOrigin := .many ["https://other.example", origin] }
      s = (.ok (), (credId, stored 1) :: s) := by
  refine (C87_registration_origins (l := ["https://other.example"]) (m := [origin]) other_ok many_ok).mpr
    (Or.inr ?_)
  refine C87_registration_looser ?_ many_ok (registration_ok s hs)
  exact ⟨rfl, rfl, rfl, rfl, rfl, fun t ht o ho => ⟨t, ht, ho⟩, id, nofun⟩

/-- User verification was required, and so the flag is set. -/
example (s : Store) : ∃ cdj raw sig handle, authArgs.credential.response = .assertion cdj raw sig handle ∧
    FlagSet raw 2 :=
  (C87_login_verification (a := authArgs).mp (authentication_ok s)).2

example (s : Store) (hs : lookup s credId = none) : ∃ cdj ob o raw,
    regArgs.credential.response = .attestation cdj ob ∧ AttObjOf env ob o raw ∧ FlagSet raw 2 :=
  (C87_registration_verification (a := regArgs).mp (registration_ok s hs)).2

theorem expects_both : ExtensionsOk (some ([.APPID] ++ [.UVI])) (some exts) := by
  intro l hl i hi
  cases hl
  simp only [List.cons_append, List.nil_append, List.mem_cons, List.not_mem_nil, or_false] at hi
  rcases hi with rfl | rfl
  · exact ⟨exts, rfl, by simp [HasExtension, exts]⟩
  · exact ⟨exts, rfl, by simp [HasExtension, exts]⟩

/-- Two extensions were expected, and so the login is accepted if only the second is. -/
example : ∃ s', handleAssertion env (recording registrar) (extArgs rp.id extBytes (some [.UVI]))
    ([(credId, stored 5)], []) = (.ok (), s') :=
  ⟨_, (C87_login_extensions (a := extArgs rp.id extBytes none) (l := [.APPID]) (m := [.UVI]).mp
    (ext_login extBytes_enc expects_both)).2⟩

/-- Expected origins that are none: which exception is raised depends on the order, and a set has
none.  One is a documented `OriginError`, the other an `InternalError`. -/
example : handleAttestation env registrar
      { regArgs with expectedOrigin := .many ["ftp://example.com", "https://example.com:https"] } [] =
      (.error (.lib .origin), []) ∧
    handleAttestation env registrar
      { regArgs with expectedOrigin := .many ["https://example.com:https", "ftp://example.com"] } [] =
      (.error (.lib .internal), []) := by
  have h1 : parseOrigin env "ftp://example.com" = .error (.lib .origin) := by decide
  have h2 : parseOrigin env "https://example.com:https" = .error .valueError :=
    C61_origin.mpr (.raises bad_port)
  constructor
  · unfold handleAttestation attestationChecks extractAllowedOrigins
    simp only [List.mapM_cons, h1]
    rfl
  · unfold handleAttestation attestationChecks extractAllowedOrigins
    simp only [List.mapM_cons, h2]
    rfl

end WebAuthn.Demo
