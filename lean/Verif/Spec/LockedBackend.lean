import Verif.Spec.Counter

/-!
# Specification of handlers that do not get in each other's way

`result moves i` is what the handler of the request `i` returned or raised, when what is in `moves`
has happened; a moment is a beginning of `moves`.
-/

namespace WebAuthn.Spec

open WebAuthn

/-- The id of the credential that a request is about. -/
def Request.rawId : Request → Bytes
  | .registration a => a.credential.rawId
  | .authentication a => a.credential.rawId

/-- Calls about one credential leave the counters of those with another lock alone. -/
structure KeepsApart {σ κ : Type} (reg : Registrar σ) (count : σ → Bytes → WithBot Int)
    (lock : Bytes → κ) : Prop where
  read : ∀ id s i, lock id ≠ lock i → count (reg.getCredentialData id s).2 i = count s i
  attestation : ∀ r s i, lock r.credential.rawId ≠ lock i →
    count (reg.registerAttestation r s).2 i = count s i
  assertion : ∀ r s i, lock r.credential.rawId ≠ lock i →
    count (reg.registerAssertion r s).2 i = count s i

variable {α ι : Type}

/-- No response is accepted twice. -/
def NeverTwice (req : ι → Request) (result : List α → ι → Option (Py Unit)) : Prop :=
  ∀ moves i j a b, i ≠ j → req i = .authentication a → req j = .authentication b →
    a.credential.rawId = b.credential.rawId → a.credential.response = b.credential.response →
    result moves i = some (.ok ()) → result moves j ≠ some (.ok ())

/-- Acceptances with one credential have different counters. -/
def DistinctCounters (req : ι → Request) (result : List α → ι → Option (Py Unit)) : Prop :=
  ∀ moves i j a b, i ≠ j → req i = .authentication a → req j = .authentication b →
    a.credential.rawId = b.credential.rawId → result moves i = some (.ok ()) →
    result moves j = some (.ok ()) → ∃ m n, HasCounter a.credential m ∧ HasCounter b.credential n ∧ m ≠ n

/-- Of acceptances with one credential, the one that was known later has the greater counter. -/
def IncreasingCounters (req : ι → Request) (result : List α → ι → Option (Py Unit)) : Prop :=
  ∀ moves more i j a b, req i = .authentication a → req j = .authentication b →
    a.credential.rawId = b.credential.rawId → result moves i = some (.ok ()) →
    result moves j = none → result (moves ++ more) j = some (.ok ()) →
    ∃ m n, HasCounter a.credential m ∧ HasCounter b.credential n ∧ m < n

/-- The handlers come one at a time, each as if it were the next after those that came before
it: `order moves` are those that have begun.  A handler that begins after another is done comes after
it, and nobody comes twice. -/
def OneByOne {σ : Type} (env : Env) (reg : Registrar σ) (s : σ) (req : ι → Request)
    (result : List α → ι → Option (Py Unit)) (allowed : α → Prop) : Prop :=
  ∃ order : List α → List ι, order [] = [] ∧
    (∀ moves m, order (moves ++ [m]) = order moves ∨
      ∃ i, i ∉ order moves ∧ order (moves ++ [m]) = order moves ++ [i]) ∧
    ∀ moves, (∀ m ∈ moves, allowed m) → ∀ i r, result moves i = some r →
      ∃ pre post, order moves = pre ++ i :: post ∧
        ((req i).handle env reg (serve env reg (pre.map req) s)).1 = r

end WebAuthn.Spec
