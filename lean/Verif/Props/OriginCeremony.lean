import Verif.Props.Ceremony
import Verif.Props.Origin

/-!
# The origins of accepted ceremonies (C37)
-/

namespace WebAuthn.Props

open WebAuthn WebAuthn.Spec

/-- The text is the ASCII serialisation of a web origin. -/
def IsSerialised (s : String) : Prop := ∃ scheme netloc p, Serialises s scheme netloc p

/-- C37, registration: where the Relying Party lists ASCII serialisations, as
clients report them, the origin of accepted client data is literally a listed one. -/
theorem C37_accepted_listed_registration {σ : Type} {env : Env} {reg : Registrar σ}
    {a : AttestationArgs} {s s' : σ} {cdj ob : Bytes} {d : Dict} {c : String}
    (he : ∀ s ∈ originList a.expectedOrigin, IsSerialised s) (hc : IsSerialised c)
    (hr : a.credential.response = .attestation cdj ob) (hd : ClientJson env cdj d)
    (ho : Lookup d (.str "origin") (.str c))
    (h : handleAttestation env reg a s = (.ok (), s')) : c ∈ originList a.expectedOrigin := by
  obtain ⟨cdj', ob', d', c', o, hr', hd', ho', h1, h2⟩ := C04_origin_registration h
  rw [hr] at hr'; cases hr'
  cases clientJson_unique hd hd'
  cases lookup_unique ho ho'
  exact (allowed_iff_listed he hc).mp ⟨o, h1, h2⟩

theorem demo_serialised : ∀ s ∈ originList (.one Demo.origin), IsSerialised s := by
  intro s hs
  cases List.mem_singleton.mp hs
  exact ⟨_, _, _, serialises_example'⟩

example : Demo.origin ∈ originList Demo.regArgs.expectedOrigin := by
  obtain ⟨text, d, ht, hd, -, -, ho, -⟩ : ClientDataText "webauthn.create" Demo.challengeText
    Demo.origin none Demo.regCdj := clientData_client rfl
  exact C37_accepted_listed_registration demo_serialised ⟨_, _, _, serialises_example'⟩ rfl
    ⟨text, ht, Demo.json _ _ hd⟩ ho
    (Demo.registration_ok [] rfl)

/-- C37, authentication. -/
theorem C37_accepted_listed_authentication {σ : Type} {env : Env} {reg : Registrar σ}
    {a : AssertionArgs} {s s' : σ} {cdj raw sig : Bytes} {handle : Option Bytes} {d : Dict}
    {c : String}
    (he : ∀ s ∈ originList a.expectedOrigin, IsSerialised s) (hc : IsSerialised c)
    (hr : a.credential.response = .assertion cdj raw sig handle) (hd : ClientJson env cdj d)
    (ho : Lookup d (.str "origin") (.str c))
    (h : handleAssertion env reg a s = (.ok (), s')) : c ∈ originList a.expectedOrigin := by
  obtain ⟨cdj', raw', sig', handle', d', c', o, hr', hd', ho', h1, h2⟩ := C04_origin_authentication h
  rw [hr] at hr'; cases hr'
  cases clientJson_unique hd hd'
  cases lookup_unique ho ho'
  exact (allowed_iff_listed he hc).mp ⟨o, h1, h2⟩

end WebAuthn.Props
