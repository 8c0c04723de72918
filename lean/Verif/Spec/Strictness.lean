import Verif.Spec.Ceremony

/-!
# Specification of stricter and looser expectations

The arguments of the two handlers other than the response are the expectations of the Relying
Party.  They are compared by what they denote: origins by the origin, allowed credentials by the
id, collections by their members.
-/

namespace WebAuthn.Spec

open WebAuthn

/-- Every origin that `e` allows is allowed by `e'`. -/
def OriginsWithin (env : Env) (e e' : ExpectedOrigin) : Prop :=
  ∀ s ∈ originList e, ∀ o, OriginOf env s o → ∃ s' ∈ originList e', OriginOf env s' o

/-- Every extension that `x'` asks for is asked for by `x`. -/
def AsksFor (x x' : Option (List ExtId)) : Prop :=
  ∀ l', x' = some l' → ∀ i ∈ l', ∃ l, x = some l ∧ i ∈ l

/-- Every credential that `m` allows is allowed by `m'`. -/
def AllowedWithin (m m' : Option (List Descriptor)) : Prop :=
  ∀ l', m' = some l' → ∃ l, m = some l ∧ ∀ c ∈ l, ∃ c' ∈ l', c'.id = c.id

/-- The expectations `a` about the same registration are as strict as `a'`. -/
structure StricterRegistration (env : Env) (a a' : AttestationArgs) : Prop where
  credential : a.credential = a'.credential
  user : a.user = a'.user
  rp : a.rp = a'.rp
  challenge : a.expectedChallenge = a'.expectedChallenge
  tokenBinding : a.tokenBinding = a'.tokenBinding
  origins : OriginsWithin env a.expectedOrigin a'.expectedOrigin
  verification : a'.requireUserVerification = true → a.requireUserVerification = true
  extensions : AsksFor a.expectedExtensions a'.expectedExtensions

/-- The expectations `a` about the same login are as strict as `a'`. -/
structure StricterLogin (env : Env) (a a' : AssertionArgs) : Prop where
  credential : a.credential = a'.credential
  user : a.user = a'.user
  rp : a.rp = a'.rp
  challenge : a.expectedChallenge = a'.expectedChallenge
  tokenBinding : a.tokenBinding = a'.tokenBinding
  origins : OriginsWithin env a.expectedOrigin a'.expectedOrigin
  allowed : AllowedWithin a.allowCredentials a'.allowCredentials
  verification : a'.requireUserVerification = true → a.requireUserVerification = true
  extensions : AsksFor a.expectedExtensions a'.expectedExtensions
  clones : a.ignoreCloneError = true → a'.ignoreCloneError = true

end WebAuthn.Spec
