import Mathlib.Order.WithBot
import Verif.Model.Backend
import Verif.Spec.Ceremony

/-!
# Registrars that keep signature counters

`count s id` is the counter stored for a credential, `⊥` if there is none.
-/

namespace WebAuthn.Spec

/-- The optional counter as an element of an ordered set: `None` is the least. -/
def counterOf : Option Int → WithBot Int
  | none => ⊥
  | some n => n

/-- The response is an assertion whose authenticator data have the counter `c`. -/
def HasCounter (c : Credential) (n : Nat) : Prop :=
  ∃ cdj raw sig handle, c.response = .assertion cdj raw sig handle ∧
    BigEndian ((raw.drop 33).take 4) n

/-- The registrar stores the reported counters: it answers with the stored
counter, and no call lowers a counter, except that it does as told by an
authentication.  (It must refuse to register a known credential anew, or keep its
counter.) -/
structure StoresCounters {σ : Type} (reg : Registrar σ) (count : σ → Bytes → WithBot Int) :
    Prop where
  read : ∀ id s i, count s i ≤ count (reg.getCredentialData id s).2 i
  read_ok : ∀ id s s' cd, reg.getCredentialData id s = (.ok (some cd), s') →
    counterOf cd.signatureCount = count s' id
  attestation : ∀ r s i, count s i ≤ count (reg.registerAttestation r s).2 i
  assertion : ∀ r s, count s r.credential.rawId < ((r.authData.signCount : Int) : WithBot Int) →
    ∀ i, count s i ≤ count (reg.registerAssertion r s).2 i
  assertion_ok : ∀ r s s', reg.registerAssertion r s = (.ok none, s') →
    ((r.authData.signCount : Int) : WithBot Int) ≤ count s' r.credential.rawId

/-- The registrar moreover refuses, in the same atomic step, a counter that is
not greater than the stored one. -/
structure ComparesCounters {σ : Type} (reg : Registrar σ) (count : σ → Bytes → WithBot Int) :
    Prop where
  read : ∀ id s i, count s i ≤ count (reg.getCredentialData id s).2 i
  attestation : ∀ r s i, count s i ≤ count (reg.registerAttestation r s).2 i
  assertion : ∀ r s i, count s i ≤ count (reg.registerAssertion r s).2 i
  assertion_ok : ∀ r s s', reg.registerAssertion r s = (.ok none, s') →
    count s r.credential.rawId < ((r.authData.signCount : Int) : WithBot Int) ∧
    ((r.authData.signCount : Int) : WithBot Int) ≤ count s' r.credential.rawId

/-- A request to a Relying Party. -/
inductive Request where
  | registration (a : AttestationArgs)
  | authentication (a : AssertionArgs)

/-- Handle one request. -/
def Request.handle {σ : Type} (env : Env) (reg : Registrar σ) : Request → σ → Py Unit × σ
  | .registration a, s => handleAttestation env reg a s
  | .authentication a, s => handleAssertion env reg a s

/-- Handle requests one after the other. -/
def serve {σ : Type} (env : Env) (reg : Registrar σ) : List Request → σ → σ
  | [], s => s
  | r :: rs, s => serve env reg rs (r.handle env reg s).2

/-- Counters are checked. -/
def Request.Strict : Request → Prop
  | .registration _ => True
  | .authentication a => a.ignoreCloneError = false

end WebAuthn.Spec
