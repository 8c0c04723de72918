import Verif.Props.OneRoute
import Verif.Props.FlaskDemo

/-!
# One route for all, concretely (C105)
-/

namespace WebAuthn.Flask.Run

open WebAuthn WebAuthn.Spec WebAuthn.Props WebAuthn.Flask


/-- The four requests of a registration and a login, to the one route. -/
def oneAsks : List Ask :=
  [⟨some "registration", { username := some "ada", challengeID := none, credential := none }, handle1,
      challenge1, 0⟩,
    ⟨some "registration", { username := some "bob", challengeID := none, credential := none }, handle2,
      challenge2, 1000⟩,
    ⟨none, formOf "1" (regCredential challenge1) "ada", [], [], 5000⟩]

theorem readable_of {f : Form} {n : Nat} {c : Credential} {name : String} (h : Submits app f n c name) :
    ∃ cid, Readable app f cid c name := by
  obtain ⟨cid, text, d, h1, -, h3, h4, h5, h6⟩ := h
  exact ⟨cid, text, d, h1, h3, h4, h5, h6⟩

theorem asks_meant : List.Forall₂ (Meant app) oneAsks [e1, e2, e3] := by
  obtain ⟨cid, h⟩ := readable_of (form1 (regCredential challenge1) "ada")
  exact .cons (.registration _ rfl rfl) (.cons (.registration _ rfl rfl)
    (.cons (.attestation _ cid _ _ h ⟨_, _, rfl⟩) .nil))

/-- Ada registers and logs in by the one route. -/
theorem C105_instance_login :
    oneReply app oneAsks ⟨some "anything", formOf "1" (authCredential 1 challenge1) "ada", [], [], 9000⟩ = success := by
  obtain ⟨cid, h⟩ := readable_of (form1 (authCredential 1 challenge1) "ada")
  exact ((C105_one_route asks_meant).2 _ e4 (.assertion _ cid _ _ h ⟨_, _, _, _, rfl⟩)).trans reply4

/-- The login, sent to the route for registrations. -/
theorem C105_instance_misdirected : run app ([e1, e2, e3] ++
    [.registrationResponse (formOf "1" (authCredential 1 challenge1) "ada") 9000]) = run app [e1, e2, e3] := by
  obtain ⟨cid, h⟩ := readable_of (form1 (authCredential 1 challenge1) "ada")
  exact (C105_misdirected (.registration _ _ cid _ _ h ⟨_, _, _, _, rfl⟩)).2

/-- The registration is no login. -/
theorem C105_instance_no_confusion (evs : List Event) (t : Int) :
    reply app evs (.authenticationResponse (formOf "1" (regCredential challenge1) "ada") t) ≠ success :=
  C105_no_confusion reply3

end WebAuthn.Flask.Run
