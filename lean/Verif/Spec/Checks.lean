import Verif.Spec.Guards
import Verif.Spec.Honest
import Verif.Model.Guards

/-!
# Which checks in front of the application are enough

`ChecksSuffice on`: behind the checks `on`, whatever the application is deployed with, all that
is asked in `Strong` holds.
-/

namespace WebAuthn.Flask

open WebAuthn.Spec

/-- The checks of Model/Guards.lean. -/
inductive Check where
  | single | own | owner | attested | key | long | above
  deriving DecidableEq

def Check.guard (app : App) : Check → Guard
  | .single => unused app
  | .own => ownChallenge app
  | .owner => unowned app
  | .attested => Flask.attestedId app
  | .key => goodKey app
  | .long => Flask.longId app
  | .above => aboveInitial app

/-- The application behind the checks of the list, in the order of the list. -/
abbrev checkedReply (app : App) (on : List Check) : List Event → Event → Reply :=
  guardedReply app (on.map (Check.guard app))

/-- The part of `Strong` that a check is there for. -/
def Check.Claim (rep : List Event → Event → Reply) (app : App) : Check → Prop
  | .single => SingleUse rep app
  | .own => UserBound rep app
  | .owner => OwnerOnly rep app
  | .attested => ∀ evs f t n c name cdj ob o raw acd,
      rep evs (.registrationResponse f t) = success → Submits app f n c name →
      c.response = .attestation cdj ob → AttObjOf app.env ob o raw → o.authData.attested = some acd →
      acd.credentialId = c.rawId
  | .key => RequestedOnly rep app ∧ ∀ evs e id name k, RegistersBy rep app evs e id name k → Profile k
  | .long => ∀ evs e id name k, RegistersBy rep app evs e id name k → 16 ≤ id.length
  | .above => CounterAbove rep app

def ChecksSuffice (on : List Check) : Prop :=
  ∀ app, CodecLaws app.env → JsonLaw app.env → Strong (checkedReply app on) app

end WebAuthn.Flask
