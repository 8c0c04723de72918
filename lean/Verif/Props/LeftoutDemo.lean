import Verif.Props.Leftout
import Verif.Props.MemoryDemo

/-!
# Logins that are left out of a concrete history (C118)
-/

namespace WebAuthn.Flask

open WebAuthn WebAuthn.Spec WebAuthn.Props

namespace Run

theorem without4 : LeavesOut [e1, e2, e3, e4] [e1, e2, e3] := .skip [e1, e2, e3] _ _ _ (.refl _)

/-- Ada's second login does not need the first (an instance of `C118_logins`). -/
example : reply app [e1, e2, e3] e5 = success := C118_logins without4 reply5

/-- The two logins in a row (an instance of `C118_forgets`). -/
example : SameFacts app ([e1, e2, e3] ++ [e4, e5]) ([e1, e2, e3] ++ [e5]) :=
  C118_forgets (id := Demo.credId) (m := 1) (m' := 2)
    ⟨_, _, _, _, _, 1, rfl, reply4, form1 _ _, rfl, rfl, counter_of 1 challenge1⟩
    ⟨_, _, _, _, _, 2, rfl, reply5, form1 _ _, rfl, rfl, counter_of 2 challenge1⟩

theorem last5 : LastLogin app [e1, e2, e3, e5] Demo.credId 2 :=
  ⟨[e1, e2, e3], e5, [], rfl, ⟨_, _, _, _, _, 2, rfl, reply5_at_once, form1 _ _, rfl, rfl, counter_of 2 challenge1⟩,
    fun a x b m' h => by simp at h⟩

/-- The converse is false: after the second login the first is refused, and without it it succeeds. -/
example : LeavesOut [e1, e2, e3, e5] [e1, e2, e3] ∧ reply app [e1, e2, e3] e4 = success ∧
    reply app [e1, e2, e3, e5] e4 ≠ success := by
  refine ⟨.skip [e1, e2, e3] _ _ _ (.refl _), reply4, fun h => ?_⟩
  obtain ⟨c, ch, name, hd, pre, e, owner, h', k, key, cd, user, rp, ad, ⟨_, _, _, _, _, hs, -⟩, -, -, -, -, -, -, -, hl, hok⟩ :=
    (C115_login app _ _ _).mp h
  obtain ⟨-, rfl, -⟩ := submits_unique hs (form1 _ _)
  have h1 := presented_above hok ((hl 2).mpr last5)
  have h2 : ad.signCount = 1 := hasCounter_unique (assertionOk_counter hok) (counter_of 1 challenge1)
  rw [h2] at h1
  exact absurd h1 (by decide)

end Run

end WebAuthn.Flask
