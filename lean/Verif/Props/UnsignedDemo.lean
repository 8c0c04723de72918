import Verif.Props.Unsigned
import Verif.Props.FlaskDemo

/-!
# Unsigned parts, concretely (C88)
-/

namespace WebAuthn.Demo

open WebAuthn WebAuthn.Spec WebAuthn.Props

theorem ignoresUnsigned : IgnoresUnsigned registrar := by
  intro c c' ad user rp h
  funext s
  simp only [registrar, h.1]

theorem ignoresNames : IgnoresNames registrar := by
  refine ⟨fun c c' ad user rp h => ?_, fun c c' o t user rp path h => ?_⟩
  · funext s
    simp only [registrar, h.1]
  · funext s
    simp only [registrar, h.1]

/-- The response of the login, with another id text and type. -/
def renamed : Credential := { authCredential with id := "AAAA", type := "other" }

theorem sameSigned : SameSigned authCredential renamed := ⟨rfl, _, _, _, _, _, _, rfl, rfl⟩

example (s : Store) : handleAssertion env registrar { authArgs with credential := renamed }
    ((credId, stored 1) :: s) = (.ok (), (credId, stored 2) :: (credId, stored 1) :: s) := by
  rw [C88_login_names ignoresNames (a := authArgs) (c := renamed) ⟨rfl, rfl⟩]
  exact authentication_ok s

example (s : Store) : handleAttestation env registrar
    { regArgs with credential := { regCredential with id := "AAAA", type := "other" } } s =
    handleAttestation env registrar regArgs s :=
  C88_registration_names ignoresNames (a := regArgs) ⟨rfl, rfl⟩

/-- The response without the user handle. -/
def bare : Credential := { authCredential with response := .assertion authCdj authRaw signature none }

theorem bare_sameSigned : SameSigned authCredential bare := ⟨rfl, _, _, _, _, _, _, rfl, rfl⟩

/-- Without the user handle the login is refused, as no user is given. -/
example (s : Store) : handleAssertion env registrar { authArgs with credential := bare }
    ((credId, stored 1) :: s) ≠ (.ok (), (credId, stored 2) :: (credId, stored 1) :: s) := by
  intro h
  obtain ⟨cd, s1, cdj, raw, sig, handle, -, h1, -, -, h2⟩ :=
    (C88_login_exact ignoresUnsigned (a := authArgs) bare_sameSigned (authentication_ok s)).mp h
  cases h1
  exact h2 rfl rfl

theorem get_one (s : Store) : registrar.getCredentialData credId ((credId, stored 1) :: s) =
    (.ok (some (stored 1)), (credId, stored 1) :: s) := by
  show (Except.ok (lookup _ credId), _) = _
  rw [lookup_head]

/-- If the user is given, it is accepted, and recorded alike. -/
example (s : Store) : handleAssertion env registrar { authArgs with credential := bare, user := some user }
    ((credId, stored 1) :: s) = (.ok (), (credId, stored 2) :: (credId, stored 1) :: s) := by
  have given : handleAssertion env registrar { authArgs with user := some user } ((credId, stored 1) :: s) =
      (.ok (), (credId, stored 2) :: (credId, stored 1) :: s) := by
    have h := authentication_ok s
    rw [C17_authentication_accepts_exactly] at h ⊢
    obtain ⟨h1, h2, cd, s1, u, rp, ad, h3, ⟨cdj, raw, sig, handle, g1, g2, g3⟩, h5⟩ := h
    replace h3 : registrar.getCredentialData credId ((credId, stored 1) :: s) = _ := h3
    have hcd := h3
    rw [get_one] at hcd
    cases hcd
    replace g2 : UserOk user none handle u := g2
    cases g2
    exact ⟨h1, h2, _, _, _, rp, ad, h3, ⟨cdj, raw, sig, _, g1, .given user _ rfl (by rintro _ ⟨⟩; rfl), g3⟩, h5⟩
  refine (C88_login_exact ignoresUnsigned (a := { authArgs with user := some user }) bare_sameSigned given).mpr
    ⟨stored 1, _, authCdj, authRaw, signature, none, get_one _, rfl, signature_ok, nofun, nofun⟩

end WebAuthn.Demo

namespace WebAuthn.Flask.Run

open WebAuthn WebAuthn.Spec WebAuthn.Props

/-- The response of Ada's login without the user handle, and with another id text. -/
def bare : Credential :=
  { authCredential 1 challenge1 with
    id := "AAAA",
    response := .assertion (clientData "webauthn.get" challenge1) (authRaw 1) (signature 1 challenge1) none }

def e4' : Event := .authenticationResponse (formOf "1" bare "ada") 9001

theorem reply4' : reply app [e1, e2, e3] e4' = success := by
  refine C56_authentication (app := app) Demo.codec Demo.json (pre := []) (pre' := [e1, e2])
    (e := e1) (e' := e3) (c := bare) (cdj := clientData "webauthn.get" challenge1)
    (raw := authRaw 1) (sig := signature 1 challenge1) (handle := none) (ad := authAd 1)
    (k := Demo.key) ⟨[e2, e3], rfl⟩ issues1 ?_ ⟨[], rfl⟩ registers3 (form1 _ _) rfl
    (clientData_text _ _) (C38_base64url_encoding _).1 ?_ (authRaw_enc 1) ?_ ?_
    (signature_ok 1 challenge1) ?_
  · decide
  · intro h hh
    cases hh
  · exact rpHash_enc (authRaw_enc 1) rfl
  · exact Demo.flagSet_enc (authRaw_enc 1) (by decide)
  · exact fun pre e m h h' => absurd h' (none_authenticated pre e m h)

example : run app [e1, e2, e3, e4] = run app [e1, e2, e3, e4'] :=
  C88_app_effect (evs := [e1, e2, e3]) (c := authCredential 1 challenge1) (c' := bare)
    ⟨rfl, _, _, _, _, _, _, rfl, rfl⟩ (form1 _ _) (form1 _ _) reply4 reply4'

example (db : Db) : authenticationResponse app (formOf "1" (authCredential 1 challenge1) "ada") 9000 db =
    authenticationResponse app
      (formOf "1" { authCredential 1 challenge1 with id := "AAAA", type := "other" } "ada") 9000 db :=
  (C88_app_names (c := authCredential 1 challenge1)
    (c' := { authCredential 1 challenge1 with id := "AAAA", type := "other" }) ⟨rfl, rfl⟩ (form1 _ _) (form1 _ _)).1

end WebAuthn.Flask.Run
