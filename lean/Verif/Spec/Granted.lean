import Verif.Spec.Books
import Verif.Spec.FlaskOutcome

/-!
# When a response succeeds, by what happened before

Nothing here mentions the tables.
-/

namespace WebAuthn.Flask

open WebAuthn WebAuthn.Spec

/-- The account was opened. -/
def AccountOpened (evs : List Event) (name : String) (h : Bytes) : Prop := (name, h) ∈ evs.foldl opened []

/-- The form can be read, is of the kind, answers the challenge `ch` that was issued at most a minute ago (to anyone), and is
for the account. -/
def Presents (app : App) (Kind : Response → Prop) (evs : List Event) (f : Form) (now : Int) (c : Credential) (ch : Bytes)
    (name : String) (h : Bytes) : Prop :=
  ∃ n t name' pre e, Submits app f n c name ∧ Kind c.response ∧ Occurs evs pre e ∧ Issues app pre e n ch t name' ∧
    now - t ≤ 60000 ∧ AccountOpened evs name h

/-- Of the challenge and the user only the bytes, the name and the handle matter to the ceremonies. -/
def challengeOf (ch : Bytes) : Challenge := ⟨0, ch, 0, 0⟩

def userOf (name : String) (h : Bytes) : User := ⟨0, name, h⟩

/-- The registration passes the ceremony, its key can be stored, and nobody registered the id. -/
def RegistrationGranted (app : App) (evs : List Event) (f : Form) (now : Int) : Prop :=
  ∃ c ch name h k key, Presents app ForRegistration evs f now c ch name h ∧
    Attests app c (challengeOf ch) (userOf name h) k ∧ KeyEncoded app.env k (.ok key) ∧
    ∀ pre e name' k', Occurs evs pre e → ¬ Registers app pre e c.rawId name' k'

/-- The credential was registered, and the login passes the ceremony with its key, its owner and the counter of the last login
with it. -/
def LoginGranted (app : App) (evs : List Event) (f : Form) (now : Int) : Prop :=
  ∃ c ch name h pre e owner h' k key cd user rp ad, Presents app ForLogin evs f now c ch name h ∧
    Occurs evs pre e ∧ Registers app pre e c.rawId owner k ∧ AccountOpened evs owner h' ∧ coseKey app.env k = .ok key ∧
    (∃ d rest, app.env.cborLoad key = .ok (.dict d, rest) ∧ CoseKeyOf d cd.publicKey) ∧
    cd.user = entityOf (userOf owner h') ∧ cd.rp = none ∧
    (∀ m, cd.signatureCount = some m ↔ LastLogin app evs c.rawId m) ∧
    AssertionOk app.env (LoginCall c (challengeOf ch) (userOf name h)) cd user rp ad

end WebAuthn.Flask
