import Verif.Props.Extensions

/-!
# C79, C80: extension outputs in logins
-/

namespace WebAuthn.Props

open WebAuthn WebAuthn.Spec

/-! ## C80 -/

theorem appIdUsed_iff {env : Env} {a : AssertionArgs} {cdj raw sig : Bytes} {h : Option Bytes}
    {ad : AuthData} (hr : a.credential.response = .assertion cdj raw sig h)
    (had : AuthDataOf env raw ad) : Repaired.appIdUsed env a = true ↔ AppIdUsed ad := by
  simp only [Repaired.appIdUsed, hr, parseAuthenticatorData_ok_iff.mpr had, Option.any_eq_true,
    beq_iff_eq, AppIdUsed]

/-- C80: a login for the AppID is refused: the RP id is expected even though the outputs say
that the AppID was used. -/
theorem C80_appid_refused {σ : Type} {env : Env} {reg : Registrar σ} {a : AssertionArgs} {s s1 : σ}
    {cd : CredentialData} {user : UserEntity} {appId : String} {ad : AuthData} {rp : RpEntity}
    (h1 : ExpectedOk env a.expectedOrigin) (h2 : AllowOk a.allowCredentials a.credential.rawId)
    (h3 : reg.getCredentialData a.credential.rawId s = (.ok (some cd), s1))
    (hrp : RpOk cd.rp a.rp rp) (h4 : AppIdAssertion env a cd user appId ad)
    (h5 : ∀ b b', Utf8 b appId → Utf8 b' rp.id → env.sha256 b ≠ env.sha256 b') :
    handleAssertion env reg a s = (.error (.lib .rpIdHash), s1) := by
  obtain ⟨cdj, raw, sig, handle, hr, hu, hc, ha, -, -, -⟩ := h4
  obtain ⟨b, hb, hb'⟩ := ha.2.1
  refine C54_authentication_error h1 h2 h3 hr (.auth user rp ad _ hu hrp hc (.rpIdHash ha.1 ?_))
  rintro ⟨b', h, h'⟩
  exact h5 b b' hb h (hb'.symm.trans h')

/-- C80, the part that holds: a Relying Party that looks at the outputs itself can log the user
in by giving the AppID in place of its id.  Missing: that the library does so. -/
theorem C80_appid_given_partial {σ : Type} {env : Env} {reg : Registrar σ} {a : AssertionArgs}
    {s s1 s' : σ} {cd : CredentialData} {user : UserEntity} {ad : AuthData} {rp : RpEntity}
    (h1 : ExpectedOk env a.expectedOrigin) (h2 : AllowOk a.allowCredentials a.credential.rawId)
    (h3 : reg.getCredentialData a.credential.rawId s = (.ok (some cd), s1))
    (hrp : cd.rp = none) (h4 : AppIdAssertion env a cd user rp.id ad)
    (h5 : reg.registerAssertion ⟨a.credential, ad, user, rp⟩ s1 = (.ok none, s')) :
    handleAssertion env reg { a with rp := some rp } s = (.ok (), s') := by
  obtain ⟨cdj, raw, sig, handle, hr, hu, hc, ha, -, hs, hn⟩ := h4
  exact assertion_accepts.mpr ⟨h1, h2, cd, s1, user, rp, ad, h3,
    ⟨cdj, raw, sig, handle, hr, hu, by rw [hrp]; exact .arg rp, hc, ha, hs, hn⟩, h5⟩

/-- C80 for the repaired function: if the AppID was used, its hash is expected. -/
theorem C80_repaired_expected (env : Env) : AppIdExpected env (Repaired.handleAppId env) := by
  intro appId σ reg a s s' log h r hr hused
  rw [Repaired.handleAppId, assertion_accepts] at h
  obtain ⟨-, -, cd, s1, user, rp, ad, h1, ⟨cdj, raw, sig, handle, h2, -, h3, -, h4, -, -⟩, h5⟩ := h
  have hc : ∀ {c : Prop} [Decidable c] {x : Option RpEntity},
      (if c then { a with rp := x } else a).credential = a.credential := by
    intro c _ x
    split <;> rfl
  rw [hc] at h1 h2
  rw [hc] at h5
  simp only [recording, Prod.mk.injEq, List.nil_append] at h1 h5
  rw [← h5.2.2, ← h1.2] at hr
  simp only [List.mem_append, List.mem_singleton, reduceCtorEq, Call.assertion.injEq, false_or] at hr
  subst hr
  rw [if_pos ((appIdUsed_iff h2 h4.1).mpr hused)] at h3
  have hid : rp.id = appId := by
    generalize cd.rp = x at h3
    cases h3 with
    | arg => rfl
    | both => rfl
  obtain ⟨b, hb, hb'⟩ := h4.2.1
  exact ⟨b, hid ▸ hb, (authDataOf_head h4.1).1.trans hb'⟩

/-- C80 for the repaired function: logins for the AppID are accepted. -/
theorem C80_repaired_accepted (env : Env) : AppIdAccepted env (Repaired.handleAppId env) := by
  intro appId σ reg a s s1 cd user rp ad h1 h2 h3 h4 h5 h6 h7
  have h6' := h6
  obtain ⟨cdj, raw, sig, handle, hr, -, -, ha, hused, -, -⟩ := h6'
  obtain ⟨s', hs'⟩ := h7 ⟨a.credential, ad, user, { rp with id := appId }⟩ rfl
  refine ⟨s', ?_⟩
  rw [Repaired.handleAppId, if_pos ((appIdUsed_iff hr ha.1).mpr hused), h3]
  exact C80_appid_given_partial (rp := { rp with id := appId }) h1 h2 h4 h5 h6 hs'

/-- The repaired function is the function of the code where the AppID was not used. -/
theorem C80_repaired_conservative {σ : Type} {env : Env} {reg : Registrar σ} {a : AssertionArgs}
    (h : ∀ cdj raw sig handle ad, a.credential.response = .assertion cdj raw sig handle →
      AuthDataOf env raw ad → ¬ AppIdUsed ad) (appId : String) (s : σ) :
    Repaired.handleAppId env appId σ reg a s = handleAssertion env reg a s := by
  have : Repaired.appIdUsed env a = false := by
    unfold Repaired.appIdUsed
    cases hr : a.credential.response with
    | attestation => rfl
    | assertion cdj raw sig handle =>
      simp only
      cases hp : parseAuthenticatorData env raw with
      | error => rfl
      | ok ad =>
        have h := h _ _ _ _ _ hr (parseAuthenticatorData_ok_iff.mp hp)
        refine Bool.eq_false_iff.mpr fun hx => h ?_
        simpa only [AppIdUsed, Option.any_eq_true, beq_iff_eq] using hx
  rw [Repaired.handleAppId, this]
  rfl

end WebAuthn.Props

/-! ## Logins with outputs -/

namespace WebAuthn.Demo

open WebAuthn WebAuthn.Spec WebAuthn.Props

/-- Authenticator data for `id` with extension outputs; UP, ED set; counter 6. -/
def extAd (id : String) (e : Extensions) : AuthData := ⟨sha (utf8Encode id), 0x81, 6, none, some e⟩

def extRaw (id : String) (b : Bytes) : Bytes :=
  sha (utf8Encode id) ++ [0x81] ++ [0, 0, 0, 6] ++ [] ++ b

theorem extRaw_enc (id : String) {e : Extensions} {b : Bytes} (h : EncodedExtensions env e b) :
    EncodedAuthData env (extAd id e) (extRaw id b) :=
  ⟨0x81, [0, 0, 0, 6], [], b, rfl, sha_length _, rfl, rfl, bigEndian_of rfl, ⟨by decide, rfl⟩,
    ⟨by decide, h⟩⟩

def extArgs (id : String) (b : Bytes) (expected : Option (List ExtId)) : AssertionArgs :=
  { credential := { id := "wdLj9A", type := "public-key", rawId := credId,
                    response := .assertion authCdj (extRaw id b)
                      (sign pubKey (extRaw id b ++ sha authCdj)) none },
    expectedChallenge := challenge, expectedOrigin := .one origin, user := some user,
    rp := some rp, expectedExtensions := expected }

theorem ext_assertion (id : String) {e : Extensions} {b : Bytes} (h : EncodedExtensions env e b)
    {expected : Option (List ExtId)} (he : ExtensionsOk expected (some e)) :
    ∃ cdj raw sig handle,
      (extArgs id b expected).credential.response = .assertion cdj raw sig handle ∧
      UserOk (stored 5).user (extArgs id b expected).user handle user ∧
      ClientOk env cdj "webauthn.get" challenge (.one origin) none ∧
      AuthOk env raw (extAd id e) id false expected ∧
      SignedBy env (stored 5).publicKey sig (raw ++ env.sha256 cdj) ∧
      CounterOk (stored 5).signatureCount raw false := by
  have hd := encodedAuthData_of codec (extRaw_enc id h)
  refine ⟨authCdj, extRaw id b, sign pubKey (extRaw id b ++ sha authCdj), none, rfl,
    .given _ _ rfl nofun,
    clientOk_of json (clientData_client rfl) challengeText_ok
      (originAllowed_of expected_ok (by simp [originList])) .none,
    ⟨hd, ⟨_, rfl, (authDataOf_head hd).1.symm⟩, flagSet_enc (extRaw_enc id h) (show Nat.testBit 0x81 0 = true by decide), nofun, he⟩,
    .ecdsa _ _ _ _ pubKey _ _ _ _ key_of rfl .es256 (check_sign pubKey (extRaw id b ++ sha authCdj)),
    ?_⟩
  intro n hn _
  cases hn
  exact ⟨6, (authDataOf_head hd).2.2.2, by decide⟩

theorem get_stored (s : Store) : registrar.getCredentialData credId ((credId, stored 5) :: s) =
    (.ok (some (stored 5)), (credId, stored 5) :: s) := by
  show (Except.ok (lookup _ credId), _) = _
  rw [lookup_head]

/-- A login with any extension outputs. -/
theorem ext_login {e : Extensions} {b : Bytes} (h : EncodedExtensions env e b)
    {expected : Option (List ExtId)} (he : ExtensionsOk expected (some e)) :
    handleAssertion env (recording registrar) (extArgs rp.id b expected) ([(credId, stored 5)], []) =
      (.ok (), [(credId, stored 6), (credId, stored 5)],
        [.read credId, .assertion ⟨(extArgs rp.id b expected).credential, extAd rp.id e, user, rp⟩]) := by
  obtain ⟨cdj, raw, sig, handle, h1, h2, h3, h4, h5, h6⟩ := ext_assertion rp.id h he
  refine assertion_accepts.mpr ⟨expected_ok, nofun, stored 5, ([(credId, stored 5)], [.read credId]),
    user, rp, extAd rp.id e, ?_, ⟨cdj, raw, sig, handle, h1, h2, .arg rp, h3, h4, h5, h6⟩, ?_⟩
  · show ((registrar.getCredentialData credId [(credId, stored 5)]).1,
      (registrar.getCredentialData credId [(credId, stored 5)]).2, _) = _
    rw [get_stored]
    rfl
  · simp only [recording, registrar, extArgs, lookup_head]
    rfl

/-! ### A location without a position -/

def nowhereMap : Dict := [(.str "loc", .dict [])]
def nowhere : Extensions := { loc := some ⟨none, none, none, none, none, none, none⟩ }
def nowhereBytes : Bytes := (Cbor.enc (.dict nowhereMap)).toOption.getD []

theorem nowhere_enc : EncodedExtensions env nowhere nowhereBytes := by
  refine ⟨nowhereMap, parseExtensions_ok_iff.mp parse_nowhere, ?_, rfl⟩
  refine .dict _ ?_ (by simp [nowhereMap]) ?_
  · intro kv hkv
    rw [List.mem_singleton.mp hkv]
    exact Or.inr ⟨_, rfl⟩
  · intro kv hkv
    rw [List.mem_singleton.mp hkv]
    exact .dict _ nofun .nil nofun

/-- C79 is false of logins: the location is expected, the login succeeds, and the Relying Party
does not learn where. -/
theorem C79_location_refuted :
    CodecLaws env ∧ JsonLaw env ∧ ¬ LocationDelivered fun _ => handleAssertion env := by
  refine ⟨codec, json, fun h => ?_⟩
  have hl : ExtensionsOk (some [.LOC]) (some nowhere) := by
    intro l hl i hi
    cases hl
    rw [List.mem_singleton.mp hi]
    exact ⟨nowhere, rfl, by simp [HasExtension, nowhere]⟩
  obtain ⟨e, c, x, y, h1, h2, h3, -⟩ := h Store registrar _ _ _ _ [.LOC] rfl
    (List.mem_singleton.mpr rfl) (ext_login nowhere_enc hl) _
    (List.mem_cons_of_mem _ (List.mem_singleton.mpr rfl))
  cases h1
  cases h2
  cases h3

/-! ### The AppID -/

def appId : String := "https://example.com/app-id.json"

theorem appId_hash : sha (utf8Encode appId) ≠ sha (utf8Encode rp.id) := by
  unfold sha
  decide +kernel

theorem appId_assertion (a : AssertionArgs) (ha : a = extArgs appId extBytes none) :
    AppIdAssertion env a (stored 5) user appId (extAd appId exts) := by
  subst ha
  obtain ⟨cdj, raw, sig, handle, h1, h2, h3, h4, h5, h6⟩ :=
    ext_assertion appId extBytes_enc (expected := none) nofun
  exact ⟨cdj, raw, sig, handle, h1, h2, h3, h4, ⟨exts, rfl, rfl⟩, h5, h6⟩

/-- The login is refused. -/
theorem appId_refused (s : Store) :
    handleAssertion env registrar (extArgs appId extBytes none) ((credId, stored 5) :: s) =
      (.error (.lib .rpIdHash), (credId, stored 5) :: s) := by
  refine C80_appid_refused expected_ok nofun (get_stored s) (.arg rp) (appId_assertion _ rfl) ?_
  intro b b' hb hb'
  cases hb
  cases hb'
  exact appId_hash

theorem takes (r : AssertionRecord) (h : r.credential = (extArgs appId extBytes none).credential) :
    ∃ s', registrar.registerAssertion r [(credId, stored 5)] = (.ok none, s') := by
  simp only [registrar, h, extArgs, lookup_head]
  exact ⟨_, rfl⟩

/-- Both functions log the user in: the function of the code if it is given the AppID. -/
example : (∃ s', handleAssertion env registrar
      { extArgs appId extBytes none with rp := some { rp with id := appId } } [(credId, stored 5)] =
        (.ok (), s')) ∧
    ∃ s', Repaired.handleAppId env appId _ registrar (extArgs appId extBytes none)
      [(credId, stored 5)] = (.ok (), s') := by
  constructor
  · obtain ⟨s', hs'⟩ := takes ⟨_, extAd appId exts, user, { rp with id := appId }⟩ rfl
    exact ⟨s', C80_appid_given_partial (rp := { rp with id := appId }) expected_ok nofun (get_stored [])
      rfl (appId_assertion _ rfl) hs'⟩
  · exact C80_repaired_accepted env appId _ registrar (extArgs appId extBytes none) _ _ (stored 5)
      user rp _ expected_ok nofun rfl (get_stored []) rfl (appId_assertion _ rfl) takes

/-- A login without outputs does not concern the AppID. -/
example (s : Store) : Repaired.handleAppId env appId _ registrar authArgs ((credId, stored 1) :: s) =
    (.ok (), (credId, stored 2) :: (credId, stored 1) :: s) := by
  rw [C80_repaired_conservative, authentication_ok]
  intro cdj raw sig handle ad hr had
  cases hr
  rw [← parseAuthenticatorData_ok_iff,
    parseAuthenticatorData_ok_iff.mpr (encodedAuthData_of codec authRaw_enc)] at had
  cases had
  rintro ⟨e, he, -⟩
  cases he

/-- C80 is false of the code: outputs that say that the AppID was used are accepted with the hash of
the RP id, and refused with the hash of the AppID. -/
theorem C80_refuted : CodecLaws env ∧ JsonLaw env ∧
    ¬ AppIdExpected env (fun _ _ => handleAssertion env) ∧
    ¬ AppIdAccepted env (fun _ _ => handleAssertion env) := by
  refine ⟨codec, json, fun h => ?_, fun h => ?_⟩
  · obtain ⟨b, hb, h⟩ := h appId Store registrar _ _ _ _ (ext_login (expected := none) extBytes_enc nofun)
      _ (List.mem_cons_of_mem _ (List.mem_singleton.mpr rfl)) ⟨exts, rfl, rfl⟩
    cases hb
    exact appId_hash h.symm
  · obtain ⟨s', h⟩ := h appId Store registrar (extArgs appId extBytes none) _ _ (stored 5) user rp
      (extAd appId exts) expected_ok nofun rfl (get_stored []) rfl (appId_assertion _ rfl) takes
    cases (appId_refused []).symm.trans h

end WebAuthn.Demo
