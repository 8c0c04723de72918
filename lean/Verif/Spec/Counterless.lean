import Verif.Spec.Exchange

/-!
# Authenticators without a counter

WebAuthn 6.1.1 has authenticators that do not implement a signature counter leave it constant at
zero, and 7.2 step 17 has Relying Parties accept that: they compare the counters if the new or the
stored one is not zero.
-/

namespace WebAuthn.Flask

open WebAuthn WebAuthn.Spec

/-- The rule of WebAuthn: a greater one, or again zero. -/
def AboveOrZero : CounterRule := fun n c => n < (c : Int) ∨ n = 0 ∧ c = 0

/-- The login with the response `c` in the form `f` at the time `now` is honest: made by a browser on
the page of the application, for an unused challenge of the user, and signed by an authenticator
with a key that the user registered, of the profile of WebAuthn.  Its counter may be anything. -/
inductive HonestLogin (rep : List Event → Event → Reply) (users : List User) (app : App) (evs : List Event) :
    (f : Form) → (now : Int) → (c : Credential) → (ad : AuthData) → Prop
  | mk {pre pre' : List Event} {e e' : Event} {f : Form} {now t : Int} {n : Nat} {ch : Bytes}
      {name chText : String} {c : Credential} {cdj raw sig : Bytes} {handle : Option Bytes}
      {ad : AuthData} {k : CPK} :
      -- the challenge and the registration
      Occurs evs pre e → IssuesBy rep pre e n ch t name → now - t ≤ 60000 →
      (∀ pre e t c name, Occurs evs pre e → ¬ SucceedsBy rep app pre e t n c name) →
      Occurs evs pre' e' → RegistersBy rep app pre' e' c.rawId name k → Profile k →
      -- the form and the response of the browser
      Submits app f n c name → c.response = .assertion cdj raw sig handle →
      ClientDataText "webauthn.get" chText "http://localhost:5000" none cdj → Base64UrlText chText ch →
      (∀ h, handle = some h → ∃ u ∈ users, u.username = name ∧ u.handle = h) →
      -- the authenticator data and its signature
      AuthDataOf app.env raw ad → RpHashOk app.env raw "localhost" → FlagSet raw 0 → OutputsOk ad →
      ¬ AppIdUsed ad → SignedBy app.env k sig (raw ++ app.env.sha256 cdj) →
      HonestLogin rep users app evs f now c ad

/-- No counter other than zero was accepted with the credential. -/
def NeverCounted (rep : List Event → Event → Reply) (app : App) (evs : List Event) (id : Bytes) : Prop :=
  ∀ pre e m, Occurs evs pre e → (AuthenticatesBy rep app pre e id m ∨ BeginsBy rep app pre e id m) → m = 0

/-- Holders of authenticators without a counter log in, again and again. -/
def ServesCounterless (rep : List Event → Event → Reply) (users : List Event → List User) (app : App) : Prop :=
  ∀ evs f now c ad, HonestLogin rep (users evs) app evs f now c ad → ad.signCount = 0 →
    NeverCounted rep app evs c.rawId → rep evs (.authenticationResponse f now) = success

end WebAuthn.Flask
