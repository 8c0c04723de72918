import Verif.Props.FlaskDemo
import Verif.Props.FlaskOutcome
import Verif.Spec.Enumeration

/-!
# C77: finding out who has an account
-/

namespace WebAuthn.Flask

open WebAuthn WebAuthn.Spec WebAuthn.Props

/-- The databases of `HidesAccounts` are consistent. -/
theorem consistent_withAccount {db : Db} (hdb : Consistent db) {name : String} {handle : Bytes}
    (h : Free db name handle) : Consistent (withAccount db name handle) where
  keyed := {
    userIds := fun i u hi => by
      rw [withAccount, List.getElem?_append] at hi
      split at hi
      · exact hdb.keyed.userIds i u hi
      · next hl =>
        rw [List.getElem?_singleton] at hi
        split at hi
        · cases hi
          simp only
          omega
        · cases hi
    names := by
      rw [withAccount, List.pairwise_append]
      refine ⟨hdb.keyed.names, List.pairwise_singleton .., fun a ha b hb => ?_⟩
      rw [List.mem_singleton.mp hb]
      exact (h a ha).1
    handles := by
      rw [withAccount, List.pairwise_append]
      refine ⟨hdb.keyed.handles, List.pairwise_singleton .., fun a ha b hb => ?_⟩
      rw [List.mem_singleton.mp hb]
      exact (h a ha).2
    challengeIds := hdb.keyed.challengeIds
    requests := hdb.keyed.requests
    credentialIds := hdb.keyed.credentialIds }
  owner := fun c hc => by
    obtain ⟨u, hu, h⟩ := hdb.owner c hc
    exact ⟨u, List.mem_append_left _ hu, h⟩

theorem noAccount_iff {db : Db} {name : String} :
    db.userNamed name = none ↔ ¬ HasAccount db name := by
  simp [Db.userNamed, HasAccount]

/-- C77: the reply to a request that begins a login tells whether the name has an account. -/
theorem C77_login_tells (app : App) (db : Db) (name : String) (ch : Bytes) (t : Int) :
    (step app (.authenticationRequest (some name) ch t) db).1 = .text "User not registered" 400 ↔
      ¬ HasAccount db name := by
  rw [← noAccount_iff]
  simp only [step, authenticationRequest]
  cases db.userNamed name with
  | none => simp
  | some u =>
    simp only [reduceCtorEq, iff_false]
    split
    · simp
    · unfold optionsReply
      split <;> simp

/-- C77 is false of every instance of the application. -/
theorem C77_hides_refuted (app : App) : ¬ HidesAccounts app := by
  intro h
  have h := h {} "ada" [1] ⟨⟨by simp, .nil, .nil, by simp, .nil, .nil⟩, by simp⟩ (by simp [Free]) [] 0
  rw [(C77_login_tells app {} "ada" [] 0).mpr (by simp [HasAccount])] at h
  exact (C77_login_tells app _ "ada" [] 0).mp h.symm ⟨_, List.mem_singleton.mpr rfl, rfl⟩

/-- C77: so does the reply to a response, at least to one with a challenge that was issued.
It takes no key. -/
theorem C77_response_tells {app : App} {db : Db} (hdb : Consistent db) {f : Form} {t : Int}
    {cid name : String} {c : Credential} {ch : Challenge} (hc : Readable app f cid c name)
    (hch : ch ∈ db.challenges) (hid : app.rowId cid = some ch.id) {e : Event}
    (he : (∃ cdj ob, c.response = .attestation cdj ob) ∧ e = .registrationResponse f t ∨
      (∃ cdj raw sig h, c.response = .assertion cdj raw sig h) ∧ e = .authenticationResponse f t) :
    (step app e db).1 = .text "Invalid username" 400 ↔ ¬ HasAccount db name := by
  have hconclude : ∀ (m : String) (x : Py Unit), m ≠ "Invalid username" →
      conclude m x ≠ .text "Invalid username" 400 := by
    intro m x hm
    unfold conclude
    repeat' split
    all_goals simp [success, hm]
  rw [← noAccount_iff]
  rcases he with ⟨⟨cdj, ob, hr⟩, rfl⟩ | ⟨⟨cdj, raw, sig, h, hr⟩, rfl⟩
  · simp only [step, registrationResponse, readResponse, readable_iff.mpr hc, hr, isAttestation,
      bne_self_eq_false, Bool.false_eq_true, if_false, hid, hdb.keyed.find_challenge hch]
    cases db.userNamed name with
    | none => simp
    | some u =>
      simp only [reduceCtorEq, iff_false]
      split
      · next h =>
        split at h
        · cases h
          simp
        · cases h
      · exact hconclude _ _ (by decide)
  · simp only [step, authenticationResponse, readResponse, readable_iff.mpr hc, hr, isAttestation,
      bne_self_eq_false, Bool.false_eq_true, if_false, hid, hdb.keyed.find_challenge hch]
    cases db.userNamed name with
    | none => simp
    | some u =>
      simp only [reduceCtorEq, iff_false]
      split
      · next h =>
        split at h
        · cases h
          simp
        · cases h
      · exact hconclude _ _ (by decide)

/-- C77, the part that holds: requests that begin a registration do not tell.  If the name has
no account, it gets one, with a random handle; the reply, and all that follows, are as if it
had always had an account with this handle.  Missing: requests that begin a login
(`C77_hides_refuted`) and responses (`C77_response_tells`). -/
theorem C77_registration_hides_partial (app : App) {db : Db} {name : String} {handle : Bytes}
    (h : Free db name handle) (other ch : Bytes) (t : Int) :
    step app (.registrationRequest (some name) handle ch t) db =
      step app (.registrationRequest (some name) other ch t) (withAccount db name handle) := by
  have h1 : db.userNamed name = none := noAccount_iff.mpr fun ⟨u, hu, he⟩ => (h u hu).1 he
  have h2 : (withAccount db name handle).userNamed name =
      some ⟨db.users.length + 1, name, handle⟩ := by
    rw [Db.userNamed, withAccount, List.find?_append]
    rw [Db.userNamed] at h1
    simp [h1]
  have h3 : (db.users.any fun u => u.username == name || u.handle == handle) = false := by
    simp only [List.any_eq_false, Bool.or_eq_true, beq_iff_eq, not_or]
    exact h
  simp only [step, registrationRequest, findOrAddUser, h1, h2, Db.addUser, h3, Bool.false_eq_true,
    if_false]
  rfl

namespace Run

/-- With a registration that is not theirs, a visitor finds out that Eve has no account and
that Bob has one. -/
example : reply app [e1, e2] (.registrationResponse (formOf "1" (regCredential challenge1) "eve") 5000) =
      .text "Invalid username" 400 ∧
    reply app [e1, e2] (.registrationResponse (formOf "1" (regCredential challenge1) "bob") 5000) ≠
      .text "Invalid username" 400 := by
  have hdb := C64_consistent_history app [e1, e2]
  have key : ∀ name, reply app [e1, e2]
      (.registrationResponse (formOf "1" (regCredential challenge1) name) 5000) =
      .text "Invalid username" 400 ↔ ¬ HasAccount (run app [e1, e2]) name := by
    intro name
    obtain ⟨cid, text, d, h1, h2, h3, h4, h5, h6⟩ := form1 (regCredential challenge1) name
    rw [reply, C77_response_tells (ch := ⟨1, challenge1, 0, 1⟩) hdb ⟨text, d, h1, h3, h4, h5, h6⟩
      (by rw [run2]; simp) h2 (Or.inl ⟨⟨_, _, rfl⟩, rfl⟩)]
  constructor
  · rw [key, run2]
    simp [HasAccount]
  · rw [ne_eq, key, run2]
    simp [HasAccount]

/-- A request to register Carol gives the same reply whether she has had an account or not. -/
example : step app (.registrationRequest (some "carol") [7] [8] 2000) (run app [e1, e2]) =
    step app (.registrationRequest (some "carol") [9] [8] 2000)
      (withAccount (run app [e1, e2]) "carol" [7]) := by
  refine C77_registration_hides_partial app ?_ _ _ _
  rw [run2]
  intro u hu
  simp only [List.mem_cons, List.not_mem_nil, or_false] at hu
  rcases hu with rfl | rfl
  · exact ⟨by decide, fun h => absurd (congrArg List.length h) (by decide)⟩
  · exact ⟨by decide, fun h => absurd (congrArg List.length h) (by decide)⟩

end Run

end WebAuthn.Flask
