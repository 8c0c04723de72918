import Verif.Props.Random
import Verif.Props.PhishingDemo

/-!
# Chance on concrete runs (C81)

What C81 bounds does happen for some of the draws, so no bound is zero.
-/

namespace WebAuthn.Flask

open WebAuthn WebAuthn.Spec WebAuthn.Props

namespace Run

/-- Ada approves two logins before anything is issued, and then the run begins. -/
def guessWorld : World where
  move evs := match evs.length with
    | 0 => .registrationRequest (some "ada") 0
    | 1 => .registrationRequest (some "bob") 1000
    | 2 => .registrationResponse (formOf "1" (regCredential challenge1) "ada") 5000
    | _ => .authenticationResponse (formOf "1" (authCredential 1 challenge1) "ada") 9000
  approvals evs := match evs with
    | [] => [approval 1, approval 2]
    | _ => []

def token (b : Fin 256) : Token := fun _ => b

/-- The draws of the run. -/
def coins : Fin 4 → Coin
  | 0 => (token 0x11, token 0xa1)
  | 1 => (token 0x22, token 0xa2)
  | _ => (token 0, token 0)

theorem guess_history : guessWorld.history (List.ofFn coins) = [e1, e2, e3, e4] := rfl

theorem guess_approvals (e : Event) (evs : List Event) :
    guessWorld.allApprovals (e :: evs) = [approval 1, approval 2] := by
  simp only [World.allApprovals, List.length_cons, List.range_succ_eq_map (n := evs.length + 1),
    List.flatMap_cons, List.take_zero, List.flatMap_map, List.take_succ_cons]
  simp [guessWorld]

theorem guess_bound (evs : List Event) : (guessWorld.allApprovals evs).length ≤ 2 := by
  cases evs with
  | nil => exact le_refl 2
  | cons e evs => rw [guess_approvals]; exact le_refl 2

/-- With these draws the challenge was guessed. -/
theorem guess_stale : StaleLogin app guessWorld (guessWorld.history (List.ofFn coins)) := by
  rw [guess_history]
  refine ⟨[e1, e2, e3], _, _, 1, authCredential 1 challenge1, "ada", "ada", [e1, e2], e3, Demo.key,
    ⟨[], rfl⟩, reply4, form1 _ _, ⟨[], rfl⟩, registers3, ?_, ?_⟩
  · rw [guess_approvals]
    have : (fun a => a ∈ [approval 1, approval 2]) = acts := by
      funext a
      simp [acts]
    rw [this]
    exact holder4
  · rintro ⟨pre', e', ch, t, name'', a, -, -, -, ⟨i, h1, h2, h3⟩, -⟩
    cases i with
    | zero => omega
    | succ i => simp [guessWorld] at h3

/-- Two users draw the same challenge. -/
def sameCoins : Fin 2 → Coin
  | 0 => (token 0x11, token 0xa1)
  | _ => (token 0x22, token 0xa1)

theorem same_unserved : Unserved app (guessWorld.history (List.ofFn sameCoins)) := by
  refine ⟨[e1], .registrationRequest (some "bob") handle2 challenge1 1000, "bob", ⟨[], rfl⟩,
    Or.inl ⟨_, _, _, rfl⟩, ?_⟩
  rintro n ch t name ⟨⟨key, v, h⟩, -⟩
  have : reply app [e1] (.registrationRequest (some "bob") handle2 challenge1 1000) =
    .crash (.other 0) := rfl
  rw [this] at h
  cases h

end Run

theorem probability_pos {q : Nat} {P : List Coin → Prop} (t : Fin q → Coin) (h : P (List.ofFn t)) :
    0 < probability q P := by
  have : Nonempty { t : Fin q → Coin // P (List.ofFn t) } := ⟨⟨t, h⟩⟩
  have h1 : 0 < Nat.card { t : Fin q → Coin // P (List.ofFn t) } := Nat.card_pos
  have h2 : 0 < Nat.card (Fin q → Coin) := Nat.card_pos (α := Fin q → Coin)
  exact div_pos (by exact_mod_cast h1) (by exact_mod_cast h2)

example : 0 < probability 4 (fun coins => StaleLogin Run.app Run.guessWorld (Run.guessWorld.history coins)) ∧
    probability 4 (fun coins => StaleLogin Run.app Run.guessWorld (Run.guessWorld.history coins)) ≤
      (4 : Nat) * (2 : Nat) / 256 ^ 64 :=
  ⟨probability_pos _ Run.guess_stale,
    C81_login (app := Run.app) Demo.codec Demo.json Run.guessWorld 4 2 fun evs _ => Run.guess_bound evs⟩

example : 0 < probability 2 (fun coins => Unserved Run.app (Run.guessWorld.history coins)) ∧
    probability 2 (fun coins => Unserved Run.app (Run.guessWorld.history coins)) ≤
      (2 : Nat) * ((2 : Nat) - 1) / 256 ^ 64 :=
  ⟨probability_pos _ Run.same_unserved, C81_served Run.app Run.guessWorld 2⟩

end WebAuthn.Flask
