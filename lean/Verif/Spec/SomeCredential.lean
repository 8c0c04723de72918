import Verif.Spec.Page
import Verif.Spec.Phishing

/-!
# Users without a credential

For any way (`rep`) of answering requests.  An empty list of allowed credentials is no restriction:
the client lets the user take any credential for the Relying Party that the authenticator has
stored (WebAuthn 5.5, `allowCredentials`; 5.1.4.1).
-/

namespace WebAuthn.Flask

/-- The user has registered a credential. -/
def HasRegistered (rep : List Event → Event → Reply) (app : App) (evs : List Event) (name : String) :
    Prop :=
  ∃ pre e id k, Occurs evs pre e ∧ RegistersBy rep app pre e id name k

/-- The user was given a challenge. -/
def Known (rep : List Event → Event → Reply) (evs : List Event) (name : String) : Prop :=
  ∃ pre e n ch t, Occurs evs pre e ∧ IssuesBy rep pre e n ch t name

/-- Users without a credential get no options. -/
def NothingToUse (rep : List Event → Event → Reply) (app : App) : Prop :=
  ∀ evs name ch t v, rep evs (.authenticationRequest (some name) ch t) = .json v →
    HasRegistered rep app evs name

/-- They are told why (app.py 244). -/
def ToldSo (rep : List Event → Event → Reply) (app : App) : Prop :=
  ∀ evs name ch t, Known rep evs name → ¬ HasRegistered rep app evs name →
    rep evs (.authenticationRequest (some name) ch t) = .text "User without credential" 400

/-- The options restrict the client to some credentials. -/
def Restricted (rep : List Event → Event → Reply) : Prop :=
  ∀ evs name ch t v opts, rep evs (.authenticationRequest (some name) ch t) = .json v →
    Page.requestCall (.json v) = some opts → ∃ id, AllowedIn opts id

end WebAuthn.Flask
