import Verif.Model.Discreet
import Verif.Spec.Enumeration

/-!
# A visitor without a key
-/

namespace WebAuthn.Flask

open WebAuthn WebAuthn.Spec

/-- The database with one more account and more credentials. -/
def withOwner (db : Db) (name : String) (handle : Bytes) (rows : List CredentialRow) : Db :=
  { withAccount db name handle with credentials := db.credentials ++ rows }

/-- Every challenge was issued to nobody or to a user. -/
def Addressed (db : Db) : Prop :=
  ∀ c ∈ db.challenges, c.userId = 0 ∨ ∃ u ∈ db.users, u.id = c.userId

/-- The requests are those of a visitor who wants to know whether there is an account with the
name and the credentials, and does not have the keys.  Random bytes are what they are in one
of the two databases, and what they could be in the other: if the account is made for the
visitor, it gets the handle that it otherwise has. -/
structure Visitor (app : App) (name : String) (handle : Bytes) (rows : List CredentialRow)
    (evs : List Event) : Prop where
  /-- The handle that is drawn for the name, if it is. -/
  drawn : ∀ pre h ch t post, evs = pre ++ .registrationRequest (some name) h ch t :: post →
    (∀ h ch t, Event.registrationRequest (some name) h ch t ∉ pre) → h = handle
  /-- Nobody else draws it. -/
  others : ∀ n h ch t, Event.registrationRequest (some n) h ch t ∈ evs → n ≠ name → h ≠ handle
  /-- The visitor does not register a credential with an id of those. -/
  ids : ∀ f t cid c n, Event.registrationResponse f t ∈ evs → Readable app f cid c n →
    ∀ r ∈ rows, r.id ≠ c.rawId
  /-- The visitor does not sign with a key of those. -/
  keys : ∀ f t cid c n, Event.authenticationResponse f t ∈ evs → Readable app f cid c n →
    ∀ r ∈ rows, r.id = c.rawId →
      ∀ d rest k cdj raw sig h, app.env.cborLoad r.key = .ok (.dict d, rest) → CoseKeyOf d k →
        c.response = .assertion cdj raw sig h → ¬ SignedBy app.env k sig (raw ++ app.env.sha256 cdj)

end WebAuthn.Flask
