import Verif.Props.Failure
import Verif.Props.FlaskOutcomeDemo
import Verif.Props.Isolation

/-!
# Users are isolated from each other, on the concrete runs (C76)
-/

namespace WebAuthn.Flask.Run

open WebAuthn WebAuthn.Spec WebAuthn.Props

/-- Carol gets the challenge that Bob got. -/
def e2c : Event := .registrationRequest (some "carol") handle2 challenge2 1000

theorem run2c : run app [e1, e2c] = ⟨[⟨1, "ada", handle1⟩, ⟨2, "carol", handle2⟩], [],
    [⟨1, challenge1, 0, 1⟩, ⟨2, challenge2, 1000, 2⟩]⟩ := rfl

theorem matched3 : Matched app "ada" [e1, e2, e3] [e1, e2c, e3] := by
  have h1 : Matched app "ada" [e1] [e1] :=
    .own [] [] e1 .nil rfl (fun _ h => by cases h) (fun _ h => by cases h)
  have h2 : Matched app "ada" [e1, e2] [e1, e2c] := by
    refine .others [e1] [e1] [e2] [e2c] h1 ?_ ?_ ?_
    · simp [e2, Event.name]
    · simp [e2c, Event.name]
    · show issued (run app [e1, e2]) = issued (run app [e1, e2c])
      rw [run2, run2c]
      rfl
  refine .own [e1, e2] [e1, e2c] e3 h2 rfl ?_ ?_
  · rw [run2]
    exact fun _ _ _ _ r hr => by cases hr
  · rw [run2c]
    exact fun _ _ _ _ r hr => by cases hr

/-- Ada logs in all the same. -/
example : reply app [e1, e2c, e3] e4 = success :=
  (C76_history (e := e4) demo_ordinary.cborLoad matched3 rfl trivial trivial).symm.trans reply4

/-- What Bob tries leaves Ada alone. -/
example (f : Form) (hf : f.username = some "bob") (t : Int) :
    holdings "ada" (run app ([e1, e2, e3] ++ [.authenticationResponse f t])) =
      holdings "ada" (run app [e1, e2, e3]) := by
  rw [run_snoc]
  exact (C76_others_leave app (C64_consistent_history app _) (by simp [Event.name, hf])).2

/-- Bob registers with the credential id of Ada. -/
def e6 : Event := .registrationResponse (formOf "2" (regCredential challenge2) "bob") 5500

/-- Before Ada has registered it, it succeeds. -/
theorem reply6 : reply app [e1, e2] e6 = success := by
  refine registration_accepted (app := app) Demo.codec Demo.json (u := ⟨2, "bob", handle2⟩) (uid := 2)
    (n := 2) (ch := challenge2) (t := 1000) (c := regCredential challenge2)
    (cdj := clientData "webauthn.create" challenge2) (ob := attObj) (acd := Demo.attested)
    (k := Demo.key) ?_ ?_ ?_ (form2 _ _) rfl (clientData_text _ _)
    (C38_base64url_encoding _).1 attObj_enc regRaw_enc ?_ ?_ storedKey_eq ?_ ?_ ?_
  · rw [run2]; simp
  · rw [run2]; simp
  · decide
  · rfl
  · rfl
  · exact rpHash_enc regRaw_enc rfl
  · exact Demo.flagSet_enc regRaw_enc (by decide)
  · exact none_registered

/-- Afterwards it does not. -/
theorem taken6 : reply app [e1, e2, e3] e6 = .text "Could not handle credential attestation" 400 := by
  have hm : Matched app "bob" [e1, e2] [e1, e2, e3] := by
    have h1 : Matched app "bob" [e1] [e1] := by
      refine .others [] [] [e1] [e1] .nil ?_ ?_ rfl <;> simp [e1, Event.name]
    have h2 : Matched app "bob" [e1, e2] [e1, e2] := by
      have hn : NoClash app "bob" (run app [e1]) e2 := by
        rw [run1]
        intro u hu he
        rw [List.mem_singleton] at hu
        rw [hu] at he
        exact absurd (congrArg List.head? he) (by decide)
      exact .own [e1] [e1] e2 h1 rfl hn hn
    obtain ⟨k, key, -, -, ht⟩ := tables3
    refine .others [e1, e2] [e1, e2] [] [e3] h2 (by simp) (by simp [e3, Event.name, formOf]) ?_
    show issued (run app [e1, e2]) = issued (run app [e1, e2, e3])
    rw [ht]
    rfl
  obtain ⟨k, key, -, -, ht⟩ := tables3
  obtain ⟨cid, text, d, h1, h2, h3, h4, h5, h6⟩ := form2 (regCredential challenge2) "bob"
  have h7 := reply6
  rw [reply, e6] at h7
  rw [reply, e6, C76_taken (C64_consistent_history app [e1, e2])
    (C64_consistent_history app [e1, e2, e3])
    (C76_alike demo_ordinary.cborLoad hm) (row := ⟨Demo.credId, none, key, 1⟩)
    (f := formOf "2" (regCredential challenge2) "bob") (t := 5500) rfl h7
    ⟨text, d, h1, h3, h4, h5, h6⟩ (by rw [ht]; simp) rfl]

end WebAuthn.Flask.Run
