import Verif.Props.Order
import Verif.Props.IsolationDemo
import Verif.Props.RetryDemo

/-!
# Concrete requests whose order does not, and does, matter (C112)
-/

namespace WebAuthn.Flask

open WebAuthn WebAuthn.Spec WebAuthn.Props

namespace Run

/-- Ada answers the challenge, and Bob asks for one. -/
theorem independent32 : Independent app [e1] e3 e2 := by
  refine ⟨by simp [e2, e3, Event.name, formOf], Or.inl rfl, ?_, ?_⟩
  · rintro x f cid c name n (rfl | rfl) hf hr hn
    · obtain rfl : formOf "1" (regCredential challenge1) "ada" = f := Option.some.inj hf
      obtain ⟨text, d, h1, -⟩ := hr
      obtain rfl : "1" = cid := Option.some.inj h1
      obtain ⟨cid', -, -, h2, h3, -⟩ := form1 (regCredential challenge1) "ada"
      obtain rfl : "1" = cid' := Option.some.inj h2
      obtain rfl : n = 1 := Option.some.inj (hn.symm.trans h3)
      exact ⟨[], e1, _, _, _, ⟨[], rfl⟩, RetryDemo.issued⟩
    · cases hf
  · rintro f f' cid c name cid' c' name' - hf
    cases hf

/-- An instance of `C112_order`. -/
theorem exchange32 : Exchangeable (reply app) [e1] e3 e2 := C112_order independent32

/-- Ada registers before Bob asks, and logs in after it. -/
example : reply app [e1] e3 = success ∧ reply app [e1, e3, e2] e4 = success :=
  ⟨exchange32.1.trans reply3, (exchange32.2.2 [] e4).trans reply4⟩

/-- An instance of `C112_alone`. -/
example : reply app [e1, e2] e3 = reply app [e1] e3 :=
  C112_alone (evs := [e1]) (pre := [e2]) fun x hx => by
    rw [List.mem_singleton] at hx
    exact hx ▸ independent32.symm

/-- An instance of `C112_any_order`. -/
example (x : Event) : reply app [e1, e2, e3, e4] x = reply app [e1, e3, e2, e4] x :=
  C112_any_order (evs := [e1]) (List.Perm.swap e3 e2 []) (by simpa using independent32.symm) [e4] x

/-- The condition on the credentials is needed: Ada and Bob register the same id, and only the first succeeds. -/
theorem C112_credentials_needed : ¬ Exchangeable (reply app) [e1, e2] e3 e6 := by
  intro h
  have h2 : reply app ([e1, e2] ++ [e3]) e6 = reply app [e1, e2] e6 := h.2.1
  rw [reply6] at h2
  have h3 := taken6.symm.trans h2
  injection h3 with h3
  revert h3
  decide

/-- The condition that one is a response is needed: challenges are numbered in the order of the requests. -/
theorem C112_response_needed : ¬ Exchangeable (reply app) [] e1 e2 := by
  intro h
  have h1 : reply app [] e1 = reply app [e2] e1 := h.1
  obtain ⟨⟨key, v, hv⟩, -⟩ := RetryDemo.issued
  obtain ⟨v', hv', -⟩ := creation_reply 2 { name := "ada", id := handle1, displayName := "ada" } challenge1
  have h2 : reply app [e2] e1 = .json (.dict [(.str "challengeID", .int 2), (.str "creationOptions", v')]) := by
    refine Eq.trans ?_ hv'
    rfl
  rw [hv, h2] at h1
  simp at h1

/-- Ada answers the challenge that Bob asks for. -/
def e7 : Event := .registrationResponse (formOf "2" (regCredential challenge2) "ada") 5500

theorem reply7 : reply app [e1, e2] e7 = success := by
  refine registration_accepted (app := app) Demo.codec Demo.json (u := ⟨1, "ada", handle1⟩) (uid := 2)
    (n := 2) (ch := challenge2) (t := 1000) (c := regCredential challenge2)
    (cdj := clientData "webauthn.create" challenge2) (ob := attObj) (acd := Demo.attested)
    (k := Demo.key) ?_ ?_ ?_ (form2 _ _) rfl (clientData_text _ _)
    (C38_base64url_encoding _).1 attObj_enc regRaw_enc ?_ ?_ storedKey_eq ?_ ?_ ?_
  · rw [run2]; simp
  · rw [run2]; simp
  · decide
  · rfl
  · rfl
  · exact rpHash_enc regRaw_enc rfl
  · exact Demo.flagSet_enc regRaw_enc (by decide)
  · exact none_registered

/-- The condition that the challenge was issued before is needed: the application takes a challenge from anyone. -/
theorem C112_issued_needed : e7.name ≠ e2.name ∧ ¬ Exchangeable (reply app) [e1] e7 e2 := by
  refine ⟨by simp [e2, e7, Event.name, formOf], fun h => ?_⟩
  have h1 : reply app [e1] e7 = success := h.1.trans reply7
  obtain ⟨n, c, name, ch, u, o, raw, acd, k, key, g1, g2, g3, -⟩ := registration_success h1
  obtain ⟨rfl, -, -⟩ := submits_unique g1 (form2 (regCredential challenge2) "ada")
  rw [run1, List.mem_singleton] at g2
  rw [g2] at g3
  exact absurd g3 (by decide)

/-- Bob answers the challenge of Ada. -/
def e8 : Event := .registrationResponse (formOf "1" (regCredential challenge1) "bob") 5500

theorem reply8 : reply app [e1, e2] e8 = success := by
  refine registration_accepted (app := app) Demo.codec Demo.json (u := ⟨2, "bob", handle2⟩) (uid := 1)
    (n := 1) (ch := challenge1) (t := 0) (c := regCredential challenge1)
    (cdj := clientData "webauthn.create" challenge1) (ob := attObj) (acd := Demo.attested)
    (k := Demo.key) ?_ ?_ ?_ (form1 _ _) rfl (clientData_text _ _)
    (C38_base64url_encoding _).1 attObj_enc regRaw_enc ?_ ?_ storedKey_eq ?_ ?_ ?_
  · rw [run2]; simp
  · rw [run2]; simp
  · decide
  · rfl
  · rfl
  · exact rpHash_enc regRaw_enc rfl
  · exact Demo.flagSet_enc regRaw_enc (by decide)
  · exact none_registered

/-- The condition on the names is needed: without his request Bob is unknown. -/
theorem C112_names_needed : ¬ Exchangeable (reply app) [e1] e8 e2 := by
  intro h
  have h1 : reply app [e1] e8 = success := h.1.trans reply8
  obtain ⟨n, c, name, ch, u, o, raw, acd, k, key, g1, -, -, -, g5, g6, -⟩ := registration_success h1
  obtain ⟨-, -, rfl⟩ := submits_unique g1 (form1 (regCredential challenge1) "bob")
  rw [run1, List.mem_singleton] at g5
  rw [g5] at g6
  exact absurd g6 (by decide)

end Run

end WebAuthn.Flask
