import Verif.Props.Books
import Verif.Props.FlaskDemo

/-!
# What the tables say about a concrete history (C114)
-/

namespace WebAuthn.Flask

open WebAuthn WebAuthn.Spec WebAuthn.Props

namespace Run

/-- Ada's login. -/
theorem authenticates4 : Authenticates app [e1, e2, e3] e4 Demo.credId 1 :=
  ⟨_, _, 1, authCredential 1 challenge1, "ada", 1, rfl, reply4, form1 _ _, rfl, rfl, counter_of 1 challenge1⟩

theorem last4 : LastLogin app [e1, e2, e3, e4] Demo.credId 1 :=
  (lastLogin_self (evs := [e1, e2, e3]) authenticates4 1).mpr authenticates4

/-- An instance of `C114_books`: the counter of Ada's login is stored, and the accounts are those of Ada and Bob. -/
example : (∃ c ∈ (run app [e1, e2, e3, e4]).credentials, c.id = Demo.credId ∧ c.count = some 1) ∧
    ((run app [e1, e2, e3, e4]).users.map fun u => (u.username, u.handle)) = [("ada", handle1), ("bob", handle2)] := by
  obtain ⟨c, hc, hi⟩ := login_row (evs := [e1, e2, e3, e4]) ⟨[], rfl⟩ authenticates4
  refine ⟨⟨c, hc, hi, ((C114_books app _).counters c hc 1).mpr (hi ▸ last4)⟩, ?_⟩
  rw [(C114_books app _).users]
  have h : ¬ ∃ a ∈ [("ada", handle1)], a.1 = "bob" ∨ a.2 = handle2 := by
    rintro ⟨a, ha, h⟩
    rw [List.mem_singleton] at ha
    subst ha
    rcases h with h | h
    · exact absurd h (by decide)
    · exact absurd (congrArg List.head? h) (by decide)
  show (if ∃ a ∈ [("ada", handle1)], a.1 = "bob" ∨ a.2 = handle2 then [("ada", handle1)]
    else [("ada", handle1)] ++ [("bob", handle2)]) = _
  rw [if_neg h]
  rfl

/-- An instance of `C114_determined`. -/
example (db : Db) (h : Faithful app [e1, e2, e3, e4] db) (k : Keyed db) (c : CredentialRow) :
    c ∈ db.credentials ↔ c ∈ (run app [e1, e2, e3, e4]).credentials :=
  (C114_determined (C114_books app _) h (C64_consistent_history app _).keyed k).2.2 c

end Run

end WebAuthn.Flask
