import Verif.Props.Revoke
import Verif.Props.RestoreDemo

/-!
# Credentials are revoked, concretely (C107)
-/

namespace WebAuthn.Flask.Run

open Spec Props

/-- Ada registers and logs in, the credential is revoked, and whoever has seen the registration and the
login sends both again. -/
def undone : List Op :=
  [.request e1, .request e2, .request e3, .request e4, .revoke Demo.credId, .request e3, .request e4]

theorem concerns3 : Concerns app e3 Demo.credId := ⟨_, _, _, _, _, Or.inl rfl, form1 _ _, rfl⟩

theorem concerns4 : Concerns app e4 Demo.credId := ⟨_, _, _, _, _, Or.inr rfl, form1 _ _, rfl⟩

theorem remaining4 : remaining app [.request e1, .request e2, .request e3, .request e4] =
    [(0, e1), (1, e2), (2, e3), (3, e4)] := rfl

theorem remaining_asked (e : Event) (h : formIn e = none) : (credentialIn app e != some Demo.credId) = true := by
  simp [credentialIn, h]

/-- After the revocation it is as before the registration. -/
theorem remaining5 : remaining app (undone.take 5) = [(0, e1), (1, e2)] := by
  rw [show undone.take 5 = [.request e1, .request e2, .request e3, .request e4] ++ [.revoke Demo.credId] from rfl,
    remaining_revoke, remaining4]
  simp only [List.filter_cons, remaining_asked e1 rfl, remaining_asked e2 rfl, concerns_iff.mp concerns3,
    concerns_iff.mp concerns4, bne_self_eq_false, Bool.false_eq_true, if_true, if_false, List.filter_nil]

theorem remaining6 : remaining app (undone.take 6) = [(0, e1), (1, e2), (5, e3)] := by
  rw [show undone.take 6 = undone.take 5 ++ [.request e3] from rfl, remaining_request, remaining5]
  rfl

theorem undone_registers2 : EnrolledAt (revokedReply app) app undone 2 Demo.credId "ada" Demo.key := by
  obtain ⟨f, t, n, c, cdj, ob, o, raw, acd, h, h1, h2⟩ := registers3
  exact ⟨e3, rfl, f, t, n, c, cdj, ob, o, raw, acd, h, (revokedReply_remaining _ _ _).trans h1, h2⟩

theorem undone_registers5 : EnrolledAt (revokedReply app) app undone 5 Demo.credId "ada" Demo.key := by
  obtain ⟨f, t, n, c, cdj, ob, o, raw, acd, h, h1, h2⟩ := registers3
  refine ⟨e3, rfl, f, t, n, c, cdj, ob, o, raw, acd, h, ?_, h2⟩
  dsimp only
  rw [revokedReply_remaining, remaining5]
  exact h1

theorem undone_login3 : EnteredAt (revokedReply app) app undone (authCredential 1 challenge1) 3 :=
  ⟨_, _, _, _, rfl, (revokedReply_remaining _ _ _).trans reply4, form1 _ _⟩

theorem undone_reply6 : revokedReply app (undone.take 6) e4 = success := by
  rw [revokedReply_remaining, remaining6]
  exact reply4

theorem undone_login6 : EnteredAt (revokedReply app) app undone (authCredential 1 challenge1) 6 :=
  ⟨_, _, _, _, rfl, undone_reply6, form1 _ _⟩

theorem undone_holder : Holder app.env Demo.key (Sent app (askedIn undone)) acts := by
  refine holder_of ?_
  rintro cdj raw sig ⟨f, t, n, c, name, handle, hm, hf, hc⟩
  simp only [askedIn, undone, List.filterMap_cons, List.filterMap_nil, e1, e2, e3, List.mem_cons,
    List.not_mem_nil, or_false, reduceCtorEq, false_or, or_self] at hm
  exact sent_of (Or.inl hm) hf hc

/-- Whoever registers the id has the key. -/
theorem undone_key {rep : List Op → Event → Reply} {j : Nat} {name : String} {k : CPK}
    (h : EnrolledAt rep app undone j Demo.credId name k) : k = Demo.key := by
  obtain ⟨e, he, f, t, n, c, cdj, ob, o, raw, acd, rfl, -, h2, h3, h4, h5, h6, h7⟩ := h
  obtain ⟨f', t', n', c', cdj', ob', o', raw', acd', h', -, g2, g3, g4, g5, g6, g7⟩ := registers3
  have hm := askedAt_mem he
  simp only [askedIn, undone, List.filterMap_cons, List.filterMap_nil, e1, e2, e4, List.mem_cons,
    List.not_mem_nil, or_false, reduceCtorEq, false_or, or_self] at hm
  have hf := hm.trans h'
  cases hf
  obtain ⟨-, rfl, -⟩ := submits_unique h2 g2
  rw [h4] at g4
  cases g4
  have ho := (parseAttestationObject_ok_iff.mpr h5).symm.trans (parseAttestationObject_ok_iff.mpr g5)
  cases ho
  rw [h6] at g6
  cases g6
  rw [h7] at g7
  exact Option.some.inj g7

end WebAuthn.Flask.Run

namespace WebAuthn.Flask

open WebAuthn.Spec WebAuthn.Props

/-- C107: whoever has a revoked credential, or has seen its registration, may register it again and
log in. -/
theorem C107_gone_refuted : ∃ app, CodecLaws app.env ∧ ¬ Gone (revokedReply app) app :=
  ⟨Run.app, Demo.codec, fun h => h (Run.undone.take 6) _ _ _ _ _ (Run.form1 _ _) (by simp [Run.undone]; rfl)
    Run.undone_reply6⟩

/-- C107: so that the same response is good for two logins. -/
theorem C107_one_login_refuted : ∃ app, CodecLaws app.env ∧ JsonLaw app.env ∧
    ¬ OneEachRevoked (revokedReply app) app fun _ _ => True := by
  refine ⟨Run.app, Demo.codec, Demo.json, fun h => ?_⟩
  obtain ⟨approval, h1, h2⟩ := h Run.undone Demo.key Run.acts 2 Demo.credId "ada" trivial Run.undone_holder
    Run.undone_registers2 fun _ _ _ => Run.undone_key
  have key : ∀ i, EnteredAt (revokedReply Run.app) Run.app Run.undone (Run.authCredential 1 Run.challenge1) i →
      approval i = some (Run.approval 1) := by
    intro i hi
    obtain ⟨a, ch, e1, e2, e3⟩ := h1 i _ hi rfl
    rw [e1]
    rcases e2 with rfl | rfl
    · rfl
    · obtain ⟨sig, handle, e⟩ := e3.response
      simp only [Run.authCredential, Run.approval, Response.assertion.injEq, Run.authRaw] at e
      simp at e
  exact absurd (h2 3 6 _ _ Run.undone_login3 rfl Run.undone_login6 rfl
    ((key 3 Run.undone_login3).trans (key 6 Run.undone_login6).symm)) (by decide)

end WebAuthn.Flask

namespace WebAuthn.Flask.Run

open Spec Props

/-- C107: before it is registered again, the response is refused. -/
theorem C107_instance : revokedReply app (undone.take 5) e4 ≠ success :=
  C107_gone_partial (j := 4) Demo.codec (form1 _ _) rfl fun i name k hi h => by
    obtain ⟨e, he, -⟩ := h
    have := (List.getElem?_eq_some_iff.mp he).1
    have : (undone.take 5).length = 5 := rfl
    omega

/-- C107: where revoked credentials are refused, neither is good for anything. -/
theorem C107_instance_barred : barredReply app (undone.take 3) e4 = success ∧
    barredReply app (undone.take 5) e3 = .text "Revoked credential" 400 ∧
    barredReply app (undone.take 6) e4 = .text "Revoked credential" 400 := by
  refine ⟨?_, (C107_barred_refused concerns3 (by simp [undone])).1, (C107_barred_refused concerns4 (by simp [undone])).1⟩
  rw [barredReply_passed (fun id _ => by simp [undone]), show undone.take 3 = [e1, e2, e3].map .request from rfl,
    passed_requests]
  exact reply4

end WebAuthn.Flask.Run
