import Verif.Spec.Flask

/-!
# What the tables say about the history
-/

namespace WebAuthn.Flask

open WebAuthn.Spec

/-- The last successful login with the credential `id` in the history had the counter `m`. -/
def LastLogin (app : App) (evs : List Event) (id : Bytes) (m : Int) : Prop :=
  ∃ pre e post, evs = pre ++ e :: post ∧ Authenticates app pre e id m ∧
    ∀ a x b m', post = a ++ x :: b → ¬ Authenticates app (pre ++ e :: a) x id m'

/-- The accounts there are after the request, if there were `l` before: a request to register with a new name opens one, unless
its handle is taken. -/
def opened (l : List (String × Bytes)) : Event → List (String × Bytes)
  | .registrationRequest (some name) h _ _ => if ∃ a ∈ l, a.1 = name ∨ a.2 = h then l else l ++ [(name, h)]
  | _ => l

/-- The tables say what happened, and nothing else: the accounts that were opened, the challenges that were issued and to whom,
the credentials that were registered, by whom and with which key, and of each the counter of the last login. -/
structure Faithful (app : App) (evs : List Event) (db : Db) : Prop where
  users : (db.users.map fun u => (u.username, u.handle)) = evs.foldl opened []
  challenges : ∀ n ch t name, (∃ u ∈ db.users, u.username = name ∧ (⟨n, ch, t, u.id⟩ : Challenge) ∈ db.challenges) ↔
    ∃ pre e, Occurs evs pre e ∧ Issues app pre e n ch t name
  issuedTo : ∀ c ∈ db.challenges, ∃ u ∈ db.users, u.id = c.userId
  credentials : ∀ id name key, (∃ u ∈ db.users, u.username = name ∧
      ∃ c ∈ db.credentials, c.id = id ∧ c.key = key ∧ c.userId = u.id) ↔
    ∃ pre e k, Occurs evs pre e ∧ Registers app pre e id name k ∧ coseKey app.env k = .ok key
  owner : ∀ c ∈ db.credentials, ∃ u ∈ db.users, u.id = c.userId
  counters : ∀ c ∈ db.credentials, ∀ m, c.count = some m ↔ LastLogin app evs c.id m
  unused : ∀ c ∈ db.credentials, c.count = none ↔ ∀ pre e m, Occurs evs pre e → ¬ Authenticates app pre e c.id m

end WebAuthn.Flask
