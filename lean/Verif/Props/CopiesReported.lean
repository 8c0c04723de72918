import Verif.Props.Failure
import Verif.Props.Outcome

/-!
# Copies of an authenticator are reported (C106)
-/

namespace WebAuthn.Props

open WebAuthn.Spec

variable {σ : Type} {env : Env} {reg : Registrar σ}

/-- C106: a login that is refused though it would be accepted if copies were ignored is reported as
that of a copy, and the registrar is only read. -/
theorem C106_reported {a : AssertionArgs} {s s' : σ}
    (h : handleAssertion env reg { a with ignoreCloneError := true } s = (.ok (), s')) :
    handleAssertion env reg { a with ignoreCloneError := false } s = (.ok (), s') ∨
      handleAssertion env reg { a with ignoreCloneError := false } s =
        (.error (.lib .signatureCount), (reg.getCredentialData a.credential.rawId s).2) := by
  obtain ⟨h1, h2, cd, s1, user, rp, ad, h3, ⟨cdj, raw, sig, hd, h4, h5, h6, h7, h8, h9, -⟩, h10⟩ :=
    assertion_accepts.mp h
  have h3' : reg.getCredentialData a.credential.rawId s = (.ok (some cd), s1) := h3
  by_cases hc : CounterOk cd.signatureCount raw false
  · exact Or.inl (assertion_accepts.mpr ⟨h1, h2, cd, s1, user, rp, ad, h3,
      ⟨cdj, raw, sig, hd, h4, h5, h6, h7, h8, h9, hc⟩, h10⟩)
  · right
    rw [h3']
    exact C54_authentication_error (a := { a with ignoreCloneError := false }) h1 h2 h3 h4
      (.signatureCount user rp ad h5 h6 h7 h8 h9 hc)

theorem user_ne {u : UserEntity} {v : Option UserEntity} {h : Option Bytes} {x : LibErr}
    (hx : UserFails u v h x) : x ≠ .signatureCount := by
  cases hx <;> nofun

theorem rp_ne {r r' : Option RpEntity} {x : LibErr} (hx : RpFails r r' x) : x ≠ .signatureCount := by
  cases hx <;> nofun

/-- C106: and nothing else is reported so. -/
theorem C106_reported_only {a : AssertionArgs} {s s1 : σ} {cd : CredentialData}
    {cdj raw sig : Bytes} {handle : Option Bytes} {c : ClientData} {o : Origin} {ad : AuthData}
    (h1 : ExpectedOk env a.expectedOrigin) (h2 : AllowOk a.allowCredentials a.credential.rawId)
    (h3 : reg.getCredentialData a.credential.rawId s = (.ok (some cd), s1))
    (h4 : a.credential.response = .assertion cdj raw sig handle)
    (h5 : ClientDataOf env cdj c) (h6 : OriginOf env c.origin o) (h7 : AuthDataOf env raw ad)
    (h8 : SignedBy env cd.publicKey sig (raw ++ env.sha256 cdj) ∨
      BadSignature env cd.publicKey sig (raw ++ env.sha256 cdj))
    (hreg : ∀ r, (reg.registerAssertion r s1).1 = .ok none)
    (h : (handleAssertion env reg a s).1 = .error (.lib .signatureCount)) :
    ∃ s', handleAssertion env reg { a with ignoreCloneError := true } s = (.ok (), s') := by
  cases (C54_authentication_error_exact h1 h2 h3 h4 h5 h6 h7 h8 hreg _).mp h with
  | user _ h => exact absurd rfl (user_ne h)
  | rp _ _ _ h => exact absurd rfl (rp_ne h)
  | client _ _ _ _ _ h => cases h
  | auth _ _ _ _ _ _ _ h => cases h
  | signatureCount u rp ad' hu hrp hcl hau hsig hc =>
    refine ⟨_, assertion_accepts.mpr ⟨h1, h2, cd, s1, u, rp, ad', h3,
      ⟨cdj, raw, sig, handle, h4, hu, hrp, hcl, hau, hsig, ?_⟩, Prod.ext (hreg _) rfl⟩⟩
    intro n _ hi
    cases hi

namespace Fail

/-- A copy that was used as often as the original would be accepted if copies were ignored, … -/
theorem copy_ignored : handleAssertion Demo.env Demo.registrar { Demo.authArgs with ignoreCloneError := true }
    [(Demo.credId, Demo.stored 2)] = (.ok (), [(Demo.credId, Demo.stored 2), (Demo.credId, Demo.stored 2)]) := by
  refine assertion_accepts.mpr ⟨Demo.expected_ok, allow, Demo.stored 2, _, Demo.user, Demo.rp, Demo.authAd, read _,
    ⟨_, _, _, _, rfl, .fromHandle, .arg _, authClient, authOk, Demo.signature_ok, ?_⟩, ?_⟩
  · intro n _ hi
    cases hi
  · simp only [Demo.registrar, Demo.authArgs, Demo.authCredential, Demo.lookup_head]
    rfl

/-- … and is reported, as they are not: an instance of `C106_reported`. -/
theorem C106_instance_reported : handleAssertion Demo.env Demo.registrar Demo.authArgs [(Demo.credId, Demo.stored 2)] =
    (.error (.lib .signatureCount), [(Demo.credId, Demo.stored 2)]) := by
  rcases C106_reported copy_ignored with h | h
  · have h' : handleAssertion Demo.env Demo.registrar Demo.authArgs [(Demo.credId, Demo.stored 2)] = _ := h
    obtain ⟨cd, s1, cdj, raw, sig, hd, h1, h2, h3⟩ := C13_counter_increases h' rfl
    rw [show Demo.registrar.getCredentialData _ _ = _ from read (Demo.stored 2)] at h1
    cases h1
    cases h2
    obtain ⟨c, hc, hlt⟩ := h3 2 rfl
    have h4 := (authDataOf_head (encodedAuthData_of Demo.codec Demo.authRaw_enc)).2.2.2
    rw [bigEndian_iff] at hc h4
    rw [hc, ← h4] at hlt
    exact absurd hlt (by decide)
  · exact h

end Fail

end WebAuthn.Props
