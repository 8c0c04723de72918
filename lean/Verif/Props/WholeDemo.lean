import Verif.Props.Whole
import Verif.Props.Attest

/-!
# C89 in the concrete world
-/

namespace WebAuthn.Props

open WebAuthn WebAuthn.Spec
open WebAuthn.Whole (Policy)

namespace Whole

def policy : Policy := { algs := [.EDDSA, .ES256] }

/-- The same, with an AppID. -/
def legacy : Policy := { algs := [.EDDSA, .ES256], appId := some Demo.appId }

theorem asked {ad : AuthData} (h : ad.attested = some Demo.attested) : AskedFor policy.algs ad :=
  ⟨_, _, h, rfl, ⟨.ES256, by simp [policy], _, rfl, rfl⟩, rfl, rfl, rfl, .ES256, .P_256, ⟨_, rfl, rfl⟩, rfl,
    .es256⟩

theorem own_id {c : Credential} {ad : AuthData} (h : ad.attested = some Demo.attested)
    (hc : c.rawId = Demo.credId) : RawIdAttests c ad := ⟨_, h, hc⟩

theorem no_outputs {ad : AuthData} (h : ad.extensions = none) : OutputsOk ad := by
  intro e he
  rw [h] at he
  cases he

theorem class_key : ClassAlg Demo.key .ES256 := .ec2 _ _ _ _ _ _ .es256

theorem permits_key : Permits (baseOf Demo.key) .ES256 :=
  ⟨.es256, fun m hm => by cases hm; rfl, nofun⟩

/-! ## A registration without statement -/

def noneAtt : AttestationObject := ⟨Demo.regAd, .NONE, .none⟩

theorem none_load : ∃ d, Demo.env.cborLoad Demo.attObj = .ok (.dict d, []) ∧
    Lookup d (.str "authData") (.bytes Demo.regRaw) ∧ Lookup d (.str "fmt") (.str "none") ∧
    Lookup d (.str "attStmt") (.dict []) := by
  obtain ⟨d, h1, h2, h3, h4, h5⟩ := Demo.attObj_enc
  have := Demo.codec.roundTrip h4 h5 []
  rw [List.append_nil] at this
  exact ⟨d, this, h3, h1, h2⟩

theorem none_of : AttObjOf Demo.env Demo.attObj noneAtt Demo.regRaw := by
  obtain ⟨d, h, h3, h1, h2⟩ := none_load
  exact ⟨d, [], [], h, h3, encodedAuthData_of Demo.codec Demo.regRaw_enc, h1, h2, rfl, rfl⟩

theorem none_registered : Whole.handleAttestation Demo.env policy Demo.registrar Demo.regArgs [] =
    (.ok (), [(Demo.credId, Demo.stored 1)]) := by
  obtain ⟨d, h, -⟩ := none_load
  exact C89_registration_kept Demo.refuses_mark (Demo.registration_ok [] rfl) rfl none_of ⟨_, h⟩ (no_outputs rfl)
    (own_id rfl rfl) (asked rfl)

/-- The code does the same. -/
example : handleAttestation Demo.env Demo.registrar Demo.regArgs [] =
    (.ok (), [(Demo.credId, Demo.stored 1)]) := by
  obtain ⟨cd, h1, -, -, h2, -⟩ : ClientOk Demo.env Demo.regCdj "webauthn.create" Demo.challenge (.one Demo.origin) none :=
    clientOk_of Demo.json (clientData_client rfl) Demo.challengeText_ok
      (originAllowed_of Demo.expected_ok (by simp [originList])) .none
  exact C89_registration_only Demo.refuses_mark none_registered rfl none_of rfl h1 h2

/-- The key that was registered can be used, and is the same after it was stored. -/
theorem none_attests : Attests Demo.env Demo.regCredential Demo.key :=
  ⟨_, _, noneAtt, _, _, rfl, none_of, rfl, rfl⟩

example : Profile Demo.key ∧ ∃ alg ∈ policy.algs,
    KeyAlg Demo.key alg ∧ ClassAlg Demo.key alg ∧ Permits (baseOf Demo.key) alg :=
  C89_registered_usable none_registered none_attests

example : ∃ b, Repaired.coseKey Demo.env Demo.key = .ok b ∧
    Repaired.parseCoseKeyBytes Demo.env b = .ok Demo.key := by
  have h : Repaired.coseKey Demo.env Demo.key = .ok Demo.keyBytes := by rfl
  exact ⟨_, h, C89_attested_stored Demo.codec none_attests h⟩

/-- Nothing is registered for another list of algorithms, and the registrar is not called. -/
example : ∃ e : Exc, Whole.handleAttestation Demo.env { algs := [.EDDSA, .ES384] } Demo.registrar Demo.regArgs [] =
    (.error e, []) ∧ (e.isWebAuthn = true ∨ e.isException = false) := by
  refine C89_registration_refused fun o t path h => ?_
  obtain ⟨cdj, ob, raw, h1, -, h2, -⟩ := h.response
  cases h1
  have he := (parseAttestationObject_ok_iff.mpr none_of).symm.trans (parseAttestationObject_ok_iff.mpr h2)
  obtain ⟨rfl, rfl⟩ : noneAtt = o ∧ Demo.regRaw = raw := by simpa using he
  obtain ⟨acd, k, h3, h4, ⟨alg, h5, m, h6, h7⟩, -⟩ := h.key
  cases h3
  cases h4
  cases h6
  subst h7
  simp [NV.id] at h5

/-- The same with a byte order mark in front of the client data, which the code refuses. -/
def markedArgs : AttestationArgs := { Demo.regArgs with credential :=
  { Demo.regCredential with response := .attestation (byteOrderMark ++ Demo.regCdj) Demo.attObj } }

example : Whole.handleAttestation Demo.env policy Demo.registrar markedArgs [] =
      (.ok (), [(Demo.credId, Demo.stored 1)]) ∧
    handleAttestation Demo.env Demo.registrar markedArgs [] = (.error (.lib .decoding), []) := by
  refine ⟨?_, C92_registration_refused Demo.refuses_mark Demo.expected_ok rfl ⟨_, rfl⟩⟩
  obtain ⟨o, t, path, ⟨h1, ⟨cdj, ob, raw, h2, ⟨cd, hc, h3⟩, h4, h5, h6, h7⟩, h8, h9, h10, h11⟩, h12⟩ :=
    C89_registration_exact.mp none_registered
  cases h2
  have he := (parseAttestationObject_ok_iff.mpr none_of).symm.trans (parseAttestationObject_ok_iff.mpr h4)
  obtain ⟨rfl, rfl⟩ : noneAtt = o ∧ Demo.regRaw = raw := by simpa using he
  cases h7
  obtain ⟨b, hb, hc⟩ := hc
  refine C89_registration_exact.mpr ⟨noneAtt, .NONE, none, ⟨h1,
    ⟨_, _, _, rfl, ⟨cd, ⟨_, .marked _, ?_⟩, h3⟩, h4, h5, h6, .none⟩, h8, h9, h10, nofun⟩, rfl⟩
  cases hb with
  | plain => exact hc

/-! ## A registration with a FIDO U2F statement, and the origin spelled otherwise -/

def spelled : String := "https://user@EXAMPLE.com:443"

theorem spelled_of : OriginOf Demo.env spelled ⟨"https", "user@EXAMPLE.com:443", 443⟩ := by
  refine parseOrigin_ok_iff.mp (parseOrigin_of (rest := "//user@EXAMPLE.com:443".toList) (port := some 443)
    (by decide) (by decide) (by rfl) (by decide) (by decide) (by rfl))

theorem spelled_same : SameOrigin Demo.env Demo.origin spelled :=
  ⟨_, _, "example.com".toList, Demo.origin_ok, spelled_of, rfl, rfl, hostOf_iff.mpr (by decide),
    hostOf_iff.mpr (by decide)⟩

def u2fArgs : AttestationArgs := { U2F.args with expectedOrigin := .many [spelled] }

theorem u2f_good : GoodRegistration Demo.env policy u2fArgs U2F.att .BASIC (some [U2F.cert]) := by
  obtain ⟨cdj, ob, h1, -, h3, h4, -⟩ := U2F.response_ok
  cases h1
  have hload := Demo.codec.roundTrip U2F.plain U2F.obj_eq []
  rw [List.append_nil] at hload
  obtain ⟨text, d, g1, g2, g3, g4, g5, g6⟩ :=
    clientData_client (type := "webauthn.create") (challenge := Demo.challengeText) (origin := Demo.origin) rfl
  refine ⟨⟨by simp [originList, u2fArgs], ?_⟩, ⟨Demo.regCdj, U2F.obj, Demo.regRaw, rfl,
    ⟨⟨"webauthn.create", Demo.challengeText, Demo.origin, none⟩,
      have hd := ⟨d, ⟨text, g1, Demo.json _ _ g2⟩, g3, g4, g5, g6⟩
      ⟨_, .plain _ (unmarked_of Demo.refuses_mark hd), hd⟩, rfl, Demo.challengeText_ok,
      ⟨spelled, by simp [originList, u2fArgs], spelled_same⟩, .none⟩,
    h3, ⟨_, hload⟩, h4, .fidoU2F _ _ _ U2F.valid⟩, no_outputs rfl, own_id rfl rfl, asked rfl, ?_⟩
  · intro s hs
    simp only [originList, u2fArgs, List.mem_singleton] at hs
    subst hs
    exact ⟨_, spelled_of⟩
  · rintro sig x5c - acd b x y crv h h'
    cases h
    cases h'
    exact ⟨rfl, rfl⟩

theorem u2f_registered : Whole.handleAttestation Demo.env policy Demo.registrar u2fArgs [] =
    (.ok (), [(Demo.credId, Demo.stored 1)]) :=
  C89_registration_exact.mpr ⟨_, _, _, u2f_good, rfl⟩

/-! ## Logins -/

theorem logged_in : Whole.handleAssertion Demo.env policy Demo.registrar Demo.authArgs
    [(Demo.credId, Demo.stored 1)] =
      (.ok (), [(Demo.credId, Demo.stored 2), (Demo.credId, Demo.stored 1)]) :=
  C89_login_kept Demo.refuses_mark (Demo.authentication_ok []) rfl (encodedAuthData_of Demo.codec Demo.authRaw_enc)
    (no_outputs rfl) (fun ⟨e, he, _⟩ => by cases he)
    (show (Except.ok (Demo.lookup _ Demo.credId), _) = _ by rw [Demo.lookup_head]) class_key permits_key

/-- The code does the same. -/
example : handleAssertion Demo.env Demo.registrar Demo.authArgs [(Demo.credId, Demo.stored 1)] =
    (.ok (), [(Demo.credId, Demo.stored 2), (Demo.credId, Demo.stored 1)]) := by
  obtain ⟨cd, h1, -, -, h2, -⟩ : ClientOk Demo.env Demo.authCdj "webauthn.get" Demo.challenge (.one Demo.origin) none :=
    clientOk_of Demo.json (clientData_client rfl) Demo.challengeText_ok
      (originAllowed_of Demo.expected_ok (by simp [originList])) .none
  exact C89_login_only Demo.refuses_mark logged_in rfl (encodedAuthData_of Demo.codec Demo.authRaw_enc)
    (fun ⟨e, he, _⟩ => by cases he) h1 h2

theorem appId_good : GoodLogin Demo.env legacy (Demo.extArgs Demo.appId Demo.extBytes none) (Demo.stored 5)
    Demo.user Demo.rp (Demo.extAd Demo.appId Demo.exts) := by
  obtain ⟨cdj, raw, sig, handle, h1, h2, h3, h4, h5, h6, h7⟩ := Demo.appId_assertion _ rfl
  refine ⟨Demo.expected_ok, nofun, .arg Demo.rp, ⟨cdj, raw, sig, handle, _, h1, h2, clientAccepted_of Demo.refuses_mark h3,
    .appId _ h5 rfl, h4, h6, h7⟩, ?_, .ES256, class_key, permits_key⟩
  intro e he
  obtain rfl : Demo.exts = e := Option.some.inj he
  exact ⟨by decide, by intro c hc; exact absurd hc (by simp [Demo.exts]), by simp [Demo.exts], by decide⟩

/-- The login for the AppID, that the code refuses. -/
theorem appId_logged_in : ∃ s', Whole.handleAssertion Demo.env legacy Demo.registrar
    (Demo.extArgs Demo.appId Demo.extBytes none) [(Demo.credId, Demo.stored 5)] = (.ok (), s') := by
  obtain ⟨s', hs'⟩ := Demo.takes ⟨_, Demo.extAd Demo.appId Demo.exts, Demo.user, Demo.rp⟩ rfl
  exact ⟨s', C89_login_exact.mpr ⟨_, _, _, _, _, Demo.get_stored [], appId_good, hs'⟩⟩

/-- Without an AppID it is refused. -/
example : ∃ (e : Exc) (s' : Demo.Store), Whole.handleAssertion Demo.env policy Demo.registrar
    (Demo.extArgs Demo.appId Demo.extBytes none) [(Demo.credId, Demo.stored 5)] = (.error e, s') ∧
    (s' = [(Demo.credId, Demo.stored 5)] ∨ s' = (Demo.registrar.getCredentialData Demo.credId
      [(Demo.credId, Demo.stored 5)]).2) ∧ (e.isWebAuthn = true ∨ e.isException = false) := by
  refine C89_login_refused fun cd user rp ad hcd h => ?_
  obtain ⟨cdj, raw, sig, handle, h1, h2, h3, h4, h5, h6, h7⟩ := Demo.appId_assertion _ rfl
  obtain ⟨cdj', raw', sig', handle', id, g1, -, -, g2, g3, -⟩ := h.response
  rw [h1] at g1
  cases g1
  obtain rfl := authDataOf_unique h4.1 g3.1
  cases g2 with
  | rp h => exact h h5
  | appId _ _ h => cases h

/-! ## What was signed -/

theorem login_accepted : AcceptedWhole Demo.env policy "example.com" (.login Demo.authRaw Demo.authCdj) :=
  ⟨_, _, _, _, _, _, _, logged_in, rfl, Demo.rpHash_enc Demo.authRaw_enc rfl⟩

theorem u2f_accepted : AcceptedWhole Demo.env policy "example.com"
    (.u2f Demo.rpHash Demo.regCdj Demo.credId Demo.x Demo.y) :=
  ⟨_, _, _, _, _, U2F.obj, U2F.att, Demo.regRaw, U2F.sig, _, Demo.attested, _, _, u2f_registered, rfl, rfl,
    U2F.obj_of, rfl, rfl, rfl, rfl, rfl⟩

/-- The signature of the statement is about nothing else. -/
example {u : Signed} (h : AcceptedWhole Demo.env policy "example.com" u)
    (he : u.message Demo.env = (Signed.u2f Demo.rpHash Demo.regCdj Demo.credId Demo.x Demo.y).message Demo.env) :
    u = .u2f Demo.rpHash Demo.regCdj Demo.credId Demo.x Demo.y ∨
    u.cdj ≠ Demo.regCdj ∧ Demo.env.sha256 u.cdj = Demo.env.sha256 Demo.regCdj := by
  rcases C89_separate Demo.sha_length h u2f_accepted he with h | h | ⟨b, hb, h⟩
  · exact Or.inl h
  · exact Or.inr h
  · cases hb
    exact absurd h (by
      show Demo.sha _ ≠ _
      unfold Demo.sha
      decide +kernel)

end Whole

end WebAuthn.Props
