import Verif.Props.Answer
import Verif.Props.RetryDemo

/-!
# Replies by what happened before, in a concrete history (C116)
-/

namespace WebAuthn.Flask

open WebAuthn WebAuthn.Spec WebAuthn.Props

namespace Run

/-- Two challenges were issued, so the next is the third. -/
theorem third : NextNumber app [e1, e2] 3 := by
  have h := next_number (app := app) (evs := [e1, e2])
  rwa [run2] at h

theorem issued1 : WasIssued app [e1, e2] 1 challenge1 0 :=
  wasIssued_row.mpr ⟨⟨1, challenge1, 0, 1⟩, by rw [run2]; exact List.mem_cons_self, rfl, rfl, rfl⟩

theorem ada_opened : AccountOpened [e1, e2] "ada" handle1 :=
  (account_row (app := app)).mpr ⟨⟨1, "ada", handle1⟩, by rw [run2]; exact List.mem_cons_self, rfl, rfl⟩

/-- Only Ada registered a credential, and only one. -/
theorem registers_only {pre : List Event} {e : Event} {id : Bytes} {name : String} {k : CPK} (ho : Occurs [e1, e2, e3] pre e)
    (h : Registers app pre e id name k) : id = Demo.credId ∧ name = "ada" := by
  obtain ⟨post, ho⟩ := ho
  obtain ⟨f, t, n, c, cdj, ob, o, raw, acd, rfl, h1, h2, h3, -⟩ := h
  match pre, ho with
  | [], ho => simp [e1] at ho
  | [_], ho => simp [e2] at ho
  | [_, _], ho =>
    simp only [e3, List.cons_append, List.nil_append, List.cons.injEq, Event.registrationResponse.injEq] at ho
    obtain ⟨rfl, rfl, ⟨rfl, rfl⟩, -⟩ := ho
    obtain ⟨_, _, _, _, _, _, _, _, _, hx, -, hs, hid, -⟩ := registers3
    simp only [e3, Event.registrationResponse.injEq] at hx
    obtain ⟨rfl, rfl⟩ := hx
    obtain ⟨rfl, rfl, rfl⟩ := submits_unique h2 hs
    exact ⟨h3.symm.trans hid, rfl⟩
  | _ :: _ :: _ :: _, ho =>
    have := congrArg List.length ho
    simp at this

/-- Her credential is the one that she is asked for. -/
theorem enrolments_ada : Enrolments app [e1, e2, e3] "ada" [Demo.credId] where
  mem id := by
    rw [List.mem_singleton]
    constructor
    · rintro rfl
      exact ⟨[e1, e2], e3, _, ⟨[], rfl⟩, registers3⟩
    · rintro ⟨pre, e, k, ho, h⟩
      exact (registers_only ho h).1
  order := List.pairwise_singleton _ _
  once := List.pairwise_singleton _ _

/-- Bob is asked for none. -/
theorem enrolments_bob : Enrolments app [e1, e2, e3] "bob" [] where
  mem id := by
    refine ⟨fun h => absurd h List.not_mem_nil, ?_⟩
    rintro ⟨pre, e, k, ho, h⟩
    exact absurd (registers_only ho h).2 (by decide)
  order := List.Pairwise.nil
  once := List.Pairwise.nil

/-- A challenge that was issued is not issued again, whoever asks (an instance of `C116_iff`). -/
example : reply app [e1, e2] (.authenticationRequest (some "ada") challenge1 7) = .crash (.other 0) :=
  (C116_iff app _ _ (by simp)).mpr (.loginChallengeTaken "ada" handle1 challenge1 7 1 0 ada_opened issued1)

/-- A new user who draws Ada's handle is turned away. -/
example : reply app [e1] (.registrationRequest (some "eve") handle1 [] 7) = .crash (.other 0) := by
  refine (C116_iff app _ _ (by simp)).mpr (.handleTaken "eve" "ada" handle1 [] 7 (unopened_iff (app := app) |>.mpr ?_)
    ((account_row (app := app)).mpr ⟨⟨1, "ada", handle1⟩, by rw [run1]; exact List.mem_cons_self, rfl, rfl⟩))
  rw [run1]
  intro u hu
  obtain rfl := List.mem_singleton.mp hu
  show "ada" ≠ "eve"
  decide

/-- Ada's registration, a minute late. -/
example : reply app [e1, e2] (.registrationResponse (formOf "1" (regCredential challenge1) "ada") 60001) = .text "Timeout" 408 := by
  obtain ⟨f, t, n, c, cdj, ob, o, raw, acd, hx, hok, hs, -, hc, -⟩ := registers3
  simp only [e3, Event.registrationResponse.injEq] at hx
  obtain ⟨rfl, rfl⟩ := hx
  obtain ⟨_, _, _, _, _, _, ⟨n', t', _, pre, e, hs', hk, ho, hi, -, -⟩, -⟩ := (C115_registration app _ _ _).mp hok
  obtain ⟨rfl, rfl, -⟩ := submits_unique hs hs'
  refine (C116_iff app _ _ (by simp)).mpr (.registrationUnheard _ _ _ (.late 1 c "ada" handle1 challenge1 0 ?_ hk issued1
    ada_opened (by decide)))
  obtain ⟨cid, text, d, h1, h2, h3⟩ := hs
  refine ⟨cid, text, d, h1, ?_, h3⟩
  obtain rfl : "1" = cid := Option.some.inj h1
  rfl

end Run

end WebAuthn.Flask
