import Verif.Spec.Counterless
import Mathlib.Data.Finset.Card
import Mathlib.Data.Finset.Range

/-!
# Copies of an authenticator

WebAuthn 6.1.1 has signature counters so that copies of an authenticator are noticed: copies count
their own uses, each from where the original was when it was copied.
-/

namespace WebAuthn.Flask

open WebAuthn WebAuthn.Spec

/-- A history in which some events are marked as uses of copies (`D`) of an authenticator, with the
number of the use of that copy. -/
abbrev Traced (D : Type) := List (Option (D × Nat) × Event)

/-- The events without the marks. -/
def eventsIn {D : Type} (h : Traced D) : List Event := h.map Prod.snd

/-- The event submits an assertion with the credential `id` and the counter `m`. -/
def AssertsWith (app : App) (e : Event) (id : Bytes) (m : Nat) : Prop :=
  ∃ f t n c name, e = .authenticationResponse f t ∧ Submits app f n c name ∧ c.rawId = id ∧ HasCounter c m

/-- Each copy of the authenticator that has the credential `id` counts its uses, from `m`. -/
def CountingUp {D : Type} (app : App) (id : Bytes) (m : Nat) (h : Traced D) : Prop :=
  ∀ (i : Nat) (d : D) (k : Nat) (e : Event), h[i]? = some (some (d, k), e) → 0 < k ∧ AssertsWith app e id (m + k)

/-- The event number `i` is the use number `k` of the copy `d`, and was answered with success. -/
def AdmittedAt {D : Type} (rep : List Event → Event → Reply) (h : Traced D) (i : Nat) (d : D) (k : Nat) : Prop :=
  ∃ e, h[i]? = some (some (d, k), e) ∧ rep (eventsIn (h.take i)) e = success

/-- The event number `i` is a use of a copy, and was not answered with success. -/
def RefusedAt {D : Type} (rep : List Event → Event → Reply) (h : Traced D) (i : Nat) : Prop :=
  ∃ d k e, h[i]? = some (some (d, k), e) ∧ rep (eventsIn (h.take i)) e ≠ success

/-- Copies of an authenticator are noticed. -/
structure CopiesNoticed (rep : List Event → Event → Reply) (app : App) : Prop where
  /-- What is accepted later was used more often: a copy is refused until it has been used more often
  than any that was accepted before. -/
  later : ∀ {D : Type} {id : Bytes} {m : Nat} {h : Traced D}, CountingUp app id m h →
    ∀ {i j d d' k k'}, i < j → AdmittedAt rep h i d k → AdmittedAt rep h j d' k' → k < k'
  /-- When two copies are used equally often, one of them is refused. -/
  noticed : ∀ {D : Type} {id : Bytes} {m : Nat} {h : Traced D}, CountingUp app id m h →
    ∀ {i j : Nat} {d d' : D} {k : Nat} {e e' : Event}, d ≠ d' → h[i]? = some (some (d, k), e) → h[j]? = some (some (d', k), e') →
      RefusedAt rep h i ∨ RefusedAt rep h j
  /-- All copies together are accepted at most as often as one of them was used. -/
  count : ∀ {D : Type} {id : Bytes} {m : Nat} {h : Traced D}, CountingUp app id m h →
    ∀ u, (∀ (i : Nat) (d : D) (k : Nat) (e : Event), h[i]? = some (some (d, k), e) → k ≤ u) →
    ∀ S : Finset Nat, (∀ i ∈ S, ∃ d k, AdmittedAt rep h i d k) → S.card ≤ u

/-- Only one authenticator has the credential, and what it signs arrives in the order in which it was
signed. -/
structure OneCopy (app : App) (id : Bytes) (m : Nat) (h : Traced Unit) : Prop where
  counts : CountingUp app id m h
  only : ∀ (i : Nat) (e : Event), h[i]? = some (none, e) → ∀ m, ¬ AssertsWith app e id m
  inOrder : ∀ (i j k k' : Nat) (e e' : Event), i < j → h[i]? = some (some ((), k), e) → h[j]? = some (some ((), k'), e') → k < k'

/-- Copies may be used elsewhere, too: the counter is at least the number of uses here, and each copy
still counts up. -/
structure CountingElsewhere {D : Type} (app : App) (id : Bytes) (m : Nat) (h : Traced D) : Prop where
  above : ∀ (i : Nat) (d : D) (k : Nat) (e : Event), h[i]? = some (some (d, k), e) → 0 < k ∧ ∃ c, m + k ≤ c ∧ AssertsWith app e id c
  up : ∀ (i j : Nat) (d : D) (k k' : Nat) (e e' : Event) (c c' : Nat), i < j → h[i]? = some (some (d, k), e) → h[j]? = some (some (d, k'), e') →
    AssertsWith app e id c → AssertsWith app e' id c' → k < k' ∧ c < c'

end WebAuthn.Flask
