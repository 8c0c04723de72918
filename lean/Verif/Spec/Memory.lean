import Verif.Spec.Answer

/-!
# What the application remembers of a history
-/

namespace WebAuthn.Flask

open WebAuthn WebAuthn.Spec

/-- The same accounts were opened, the same challenges issued, the same credentials registered, with the same keys and in the
same order, and the last logins had the same counters. -/
structure SameFacts (app : App) (evs evs' : List Event) : Prop where
  accounts : evs.foldl opened [] = evs'.foldl opened []
  challenges : ∀ n ch t name, (∃ pre e, Occurs evs pre e ∧ Issues app pre e n ch t name) ↔
    ∃ pre e, Occurs evs' pre e ∧ Issues app pre e n ch t name
  credentials : ∀ id name key, (∃ pre e k, Occurs evs pre e ∧ Registers app pre e id name k ∧ coseKey app.env k = .ok key) ↔
    ∃ pre e k, Occurs evs' pre e ∧ Registers app pre e id name k ∧ coseKey app.env k = .ok key
  order : ∀ a b, RegisteredBefore app evs a b ↔ RegisteredBefore app evs' a b
  counters : ∀ id m, LastLogin app evs id m ↔ LastLogin app evs' id m

end WebAuthn.Flask
