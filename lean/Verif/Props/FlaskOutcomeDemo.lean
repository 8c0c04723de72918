import Verif.Props.FlaskDemo
import Verif.Props.FlaskOutcome

/-!
# C64: outcomes of concrete requests
-/

namespace WebAuthn.Flask.Run

open WebAuthn WebAuthn.Spec WebAuthn.Props WebAuthn.Flask

theorem readable {cid : String} {n n' : Nat} {f : Form} {c c' : Credential} {name name' : String}
    (hf : Submits app f n c name) (h : Readable app f cid c' name') (hn : app.rowId cid = some n') :
    n' = n ∧ c' = c ∧ name' = name := by
  obtain ⟨text, d, h1, h2, h3, h4, h5⟩ := h
  exact submits_unique ⟨cid, text, d, h1, hn, h2, h3, h4, h5⟩ hf

/-- The registration of Ada adds one row: the credential, under the number of Ada. -/
theorem tables3 : ∃ k key, Attests app (regCredential challenge1) ⟨1, challenge1, 0, 1⟩
      ⟨1, "ada", handle1⟩ k ∧ KeyEncoded app.env k (.ok key) ∧ run app [e1, e2, e3] =
    { run app [e1, e2] with credentials := [⟨Demo.credId, none, key, 1⟩] } := by
  have h := C64_reply app [e1, e2] e3
  rw [reply3, success] at h
  generalize hd : run app ([e1, e2] ++ [e3]) = db' at h
  change run app [e1, e2, e3] = db' at hd
  rw [hd]
  generalize hr : Reply.text "Success" 200 = r at h
  cases h with
  | registrationUnread _ _ _ h => cases h <;> simp at hr
  | registrationRefused _ _ _ _ _ _ _ _ _ _ _ h => cases h <;> simp at hr
  | registrationNoKey _ _ _ _ _ _ _ _ _ _ _ _ h1 h2 => cases h1 <;> cases h2 <;> simp at hr
  | registrationTaken => simp at hr
  | registered _ _ c ch u k key h1 h2 h3 h4 =>
    obtain ⟨cid, h5, h6⟩ := h1.cid
    obtain ⟨hn, rfl, hu⟩ := readable (form1 _ _) h5 h6
    have h7 := h1.user
    have h8 := h1.challenge
    rw [run2] at h7 h8 ⊢
    simp only [List.mem_cons, List.not_mem_nil, or_false] at h7 h8
    rcases h7 with rfl | rfl
    · rcases h8 with rfl | rfl
      · exact ⟨k, key, h2, h3, rfl⟩
      · simp at hn
    · simp at hu

/-- The same credential again: it is refused and nothing changes. -/
example : reply app [e1, e2, e3] e3 = .text "Could not handle credential attestation" 400 ∧
    run app ([e1, e2, e3] ++ [e3]) = run app [e1, e2, e3] := by
  obtain ⟨k, key, ha, hk, ht⟩ := tables3
  obtain ⟨cid, text, d, h1, h2, h3, h4, h5, h6⟩ := form1 (regCredential challenge1) "ada"
  have h : Outcome app (run app [e1, e2, e3]) e3 (.text "Could not handle credential attestation" 400)
      (run app [e1, e2, e3]) := by
    refine .registrationTaken _ _ (regCredential challenge1) ⟨1, challenge1, 0, 1⟩
      ⟨1, "ada", handle1⟩ k key ⟨Demo.credId, none, key, 1⟩
      ⟨⟨cid, ⟨text, d, h1, h3, h4, h5, h6⟩, h2⟩, ⟨_, _, rfl⟩, ?_, ?_, ?_⟩ ha hk ?_ rfl
    · rw [ht, run2]; simp
    · rw [ht, run2]; simp
    · decide
    · rw [ht]; simp
  exact C64_reply_only h (fun v => by simp)

/-- After more than a minute: status 408. -/
example : ∃ n, Outcome app (run app [e1, e2])
    (.registrationResponse (formOf "1" (regCredential challenge1) "ada") n)
    (.text "Timeout" 408) (run app [e1, e2]) := by
  obtain ⟨cid, text, d, h1, h2, h3, h4, h5, h6⟩ := form1 (regCredential challenge1) "ada"
  refine ⟨70000, .registrationUnread _ _ _ (.late cid (regCredential challenge1)
    ⟨1, challenge1, 0, 1⟩ ⟨1, "ada", handle1⟩ ⟨text, d, h1, h3, h4, h5, h6⟩ ⟨_, _, rfl⟩ ?_ h2 ?_ ?_)⟩
  · rw [run2]; simp
  · rw [run2]; simp
  · decide

/-- A handle that was drawn before. -/
example : Outcome app (run app [e1, e2]) (.registrationRequest (some "eve") handle2 [] 7)
    (.crash integrityError) (run app [e1, e2]) := by
  refine .handleTaken _ _ _ _ ⟨2, "bob", handle2⟩ ?_ ?_ rfl
  · rw [run2]; decide
  · rw [run2]; simp

/-- A challenge that was drawn before: the new user stays in the table. -/
example : Outcome app (run app [e1, e2]) (.registrationRequest (some "eve") [5] challenge1 7)
    (.crash integrityError) { run app [e1, e2] with
      users := [⟨1, "ada", handle1⟩, ⟨2, "bob", handle2⟩, ⟨3, "eve", [5]⟩] } := by
  refine .registrationChallengeTaken _ _ _ _ ⟨3, "eve", [5]⟩ _ ⟨1, challenge1, 0, 1⟩ ?_ ?_ rfl
  · rw [run2]
    exact .new (by decide)
  · rw [run2]; simp

/-- The counter of the stored credential is set by the first login. -/
example : ∃ key, run app [e1, e2, e3, e4] =
    { run app [e1, e2] with credentials := [⟨Demo.credId, some 1, key, 1⟩] } := by
  have h := C64_reply app [e1, e2, e3] e4
  rw [reply4, success] at h
  generalize hr : Reply.text "Success" 200 = r at h
  generalize hd : run app ([e1, e2, e3] ++ [e4]) = db' at h
  change run app [e1, e2, e3, e4] = db' at hd
  rw [hd]
  obtain ⟨k, key, -, -, ht⟩ := tables3
  rw [ht] at h
  cases h with
  | loginUnread _ _ _ h => cases h <;> simp at hr
  | loginUnknown => simp at hr
  | loginRefused _ _ _ _ _ _ _ _ _ _ _ _ _ _ _ _ h => cases h <;> simp at hr
  | loginNoKey _ _ _ _ _ _ _ _ _ _ _ _ _ _ h => cases h <;> simp at hr
  | loggedIn _ _ c ch u row cd user rp ad h1 h2 h3 h4 h5 =>
    obtain ⟨cid, h6, h7⟩ := h1.cid
    obtain ⟨-, rfl, hu⟩ := readable (form1 _ _) h6 h7
    obtain ⟨cdj, raw, sig, handle, h8, -, -, -, h9, -⟩ := h5
    simp only [LoginCall, authCredential, Response.assertion.injEq] at h8
    obtain ⟨rfl, rfl, rfl, rfl⟩ := h8
    have h10 : HasCounter (authCredential 1 challenge1) ad.signCount :=
      ⟨_, _, _, _, rfl, (authDataOf_head h9.1).2.2.2⟩
    rw [hasCounter_unique h10 (counter_of 1 challenge1)]
    exact ⟨key, by rw [run2]; simp [authCredential]⟩

end WebAuthn.Flask.Run
