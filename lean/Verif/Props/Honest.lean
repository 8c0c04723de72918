import Verif.Spec.Honest
import Verif.Lemmas.Backend
import Verif.Codec.CborLaws
import Verif.Codec.Json
import Verif.Props.Origin

/-!
# Round trips and honest ceremonies (C25, C52)
-/

namespace WebAuthn.Props

open WebAuthn WebAuthn.Spec

theorem encodedKey_of {env : Env} (codec : CodecLaws env) {k : CPK} {b rest : Bytes}
    (h : EncodedKey env k b) :
    ∃ d, env.cborLoad (b ++ rest) = .ok (.dict d, rest) ∧ CoseKeyOf d k ∧ KeyConsistent k := by
  obtain ⟨d, h1, h2, h3, h4⟩ := h
  exact ⟨d, codec.roundTrip h3 h4 rest, h1, h2⟩

theorem encodedAuthData_of {env : Env} (codec : CodecLaws env) {ad : AuthData} {raw : Bytes}
    (h : EncodedAuthData env ad raw) : AuthDataOf env raw ad := by
  obtain ⟨flags, count, att, ext, rfl, h1, h2, h3, h4, h5, h6⟩ := h
  refine ⟨flags, count, att ++ ext, ext, by simp, h1, h2, h3, h4, ?_, ?_⟩
  · cases ha : ad.attested with
    | none =>
      rw [ha] at h5
      exact ⟨h5.1, by rw [h5.2, List.nil_append]⟩
    | some a =>
      rw [ha] at h5
      obtain ⟨hb, len, k, kb, rfl, e1, e2, e3, e4, e5, e6⟩ := h5
      obtain ⟨d, e7, e8, e9⟩ := encodedKey_of codec (rest := ext) e6
      exact ⟨hb, len, kb ++ ext, d, k, by simp, e1, e2, e3, e4, e7, e5, e8, e9⟩
  · cases he : ad.extensions with
    | none =>
      rw [he] at h6
      exact ⟨h6.1, h6.2⟩
    | some e =>
      rw [he] at h6
      obtain ⟨hb, d, e1, e2, e3⟩ := h6
      have := codec.roundTrip e2 e3 []
      rw [List.append_nil] at this
      exact ⟨hb, d, this, e1⟩

/-- C25: parsing the encoding of authenticator data gives exactly the data. -/
theorem C25_auth_data_round_trip {env : Env} (codec : CodecLaws env) {ad : AuthData} {raw : Bytes}
    (h : EncodedAuthData env ad raw) : parseAuthenticatorData env raw = .ok ad :=
  parseAuthenticatorData_ok_iff.mpr (encodedAuthData_of codec h)

theorem clientOk_of {env : Env} (json : JsonLaw env) {cdj : Bytes} {type chText origin : String}
    {challenge : Bytes} {expected : ExpectedOrigin} {tb : Option TokenBinding}
    {ctb : Option ClientTokenBinding}
    (hcdj : ClientDataText type chText origin ctb cdj) (hch : Base64UrlText chText challenge)
    (horigin : OriginAllowed env expected origin) (htb : TokenBindingOk tb ctb) :
    ClientOk env cdj type challenge expected tb := by
  obtain ⟨text, d, h1, h2, h3, h4, h5, h6⟩ := hcdj
  exact ⟨⟨type, chText, origin, ctb⟩, ⟨d, ⟨text, h1, json _ _ h2⟩, h3, h4, h5, h6⟩, rfl, hch, horigin,
    htb⟩

/-- An expected origin is allowed. -/
theorem originAllowed_of {env : Env} {expected : ExpectedOrigin} {origin : String}
    (hexp : ExpectedOk env expected) (h : origin ∈ originList expected) :
    OriginAllowed env expected origin := by
  obtain ⟨o, ho⟩ := hexp.2 origin h
  exact ⟨o, ho, origin, h, ho⟩

/-- C52, registration: an honest response with `none` attestation is accepted,
and the registrar gets the parsed data. -/
theorem C52_honest_registration {σ : Type} {env : Env} (codec : CodecLaws env) (json : JsonLaw env)
    {reg : Registrar σ} {a : AttestationArgs} {s s' : σ} {cdj ob raw : Bytes}
    {chText origin : String} {ctb : Option ClientTokenBinding} {ad : AuthData} {acd : AttestedCredentialData}
    -- the response of the browser to the options
    (hresp : a.credential.response = .attestation cdj ob)
    (hcdj : ClientDataText "webauthn.create" chText origin ctb cdj)
    (hch : Base64UrlText chText a.expectedChallenge)
    (hob : EncodedNoneAttestation env raw ob)
    -- the authenticator data
    (had : EncodedAuthData env ad raw) (hacd : ad.attested = some acd)
    (hrp : RpHashOk env raw a.rp.id) (hup : FlagSet raw 0)
    (huv : a.requireUserVerification = true → FlagSet raw 2)
    (hext : ExtensionsOk a.expectedExtensions ad.extensions)
    -- the expectation of the Relying Party
    (hexp : ExpectedOk env a.expectedOrigin) (horigin : OriginAllowed env a.expectedOrigin origin)
    (htb : TokenBindingOk a.tokenBinding ctb)
    -- the registrar takes it
    (hreg : reg.registerAttestation
      ⟨a.credential, ⟨ad, .NONE, .none⟩, .NONE, a.user, a.rp, none⟩ s = (.ok none, s')) :
    handleAttestation env reg a s = (.ok (), s') := by
  rw [attestation_accepts]
  have hadOf := encodedAuthData_of codec had
  obtain ⟨d, h1, h2, h3, h4, h5⟩ := hob
  refine ⟨hexp, ⟨ad, .NONE, .none⟩, raw, ⟨cdj, ob, hresp, ?_, ?_, ?_, ?_⟩, rfl, hreg⟩
  · exact clientOk_of json hcdj hch horigin htb
  · have := codec.roundTrip h4 h5 []
    rw [List.append_nil] at this
    exact ⟨d, [], [], this, h3, hadOf, h1, h2, rfl, rfl⟩
  · exact ⟨hadOf, hrp, hup, huv, hext⟩
  · rw [hacd]; simp

/-- C52, authentication: an honest assertion for a stored credential is
accepted. -/
theorem C52_honest_authentication {σ : Type} {env : Env} (codec : CodecLaws env)
    (json : JsonLaw env) {reg : Registrar σ} {a : AssertionArgs} {s s1 s' : σ}
    {cdj raw sig : Bytes} {handle : Option Bytes} {chText origin : String} {ctb : Option ClientTokenBinding}
    {ad : AuthData} {cd : CredentialData} {user : UserEntity} {rp : RpEntity}
    -- the registrar knows the credential
    (hget : reg.getCredentialData a.credential.rawId s = (.ok (some cd), s1))
    (hallow : AllowOk a.allowCredentials a.credential.rawId)
    -- the response of the browser to the options
    (hresp : a.credential.response = .assertion cdj raw sig handle)
    (hcdj : ClientDataText "webauthn.get" chText origin ctb cdj)
    (hch : Base64UrlText chText a.expectedChallenge)
    (huser : UserOk cd.user a.user handle user) (hrpOk : RpOk cd.rp a.rp rp)
    -- the authenticator data and its signature
    (had : EncodedAuthData env ad raw) (hrp : RpHashOk env raw rp.id) (hup : FlagSet raw 0)
    (huv : a.requireUserVerification = true → FlagSet raw 2)
    (hext : ExtensionsOk a.expectedExtensions ad.extensions)
    (hsig : SignedBy env cd.publicKey sig (raw ++ env.sha256 cdj))
    (hcount : CounterOk cd.signatureCount raw a.ignoreCloneError)
    -- the expectation of the Relying Party
    (hexp : ExpectedOk env a.expectedOrigin) (horigin : OriginAllowed env a.expectedOrigin origin)
    (htb : TokenBindingOk a.tokenBinding ctb)
    -- the registrar takes it
    (hreg : reg.registerAssertion ⟨a.credential, ad, user, rp⟩ s1 = (.ok none, s')) :
    handleAssertion env reg a s = (.ok (), s') := by
  rw [assertion_accepts]
  refine ⟨hexp, hallow, cd, s1, user, rp, ad, hget, ⟨cdj, raw, sig, handle, hresp, huser, hrpOk,
    ?_, ⟨encodedAuthData_of codec had, hrp, hup, huv, hext⟩, hsig, hcount⟩, hreg⟩
  exact clientOk_of json hcdj hch horigin htb

/-- What C52 asks of a registrar that keeps what it is given: it takes a credential
with a key under an id that it does not know; the credential of a registration is
found again with the attested key and the user, and a write for it is accepted. -/
structure KeepsRegistrations {σ : Type} (reg : Registrar σ) : Prop where
  accepts : ∀ r s acd k, r.att.authData.attested = some acd → acd.credentialPublicKey = some k →
    (reg.getCredentialData r.credential.rawId s).1 = .ok none →
    ∃ s', reg.registerAttestation r s = (.ok none, s')
  finds : ∀ r s s' acd k, reg.registerAttestation r s = (.ok none, s') →
    r.att.authData.attested = some acd → acd.credentialPublicKey = some k →
    ∃ cd s1, reg.getCredentialData r.credential.rawId s' = (.ok (some cd), s1) ∧
      cd.publicKey = k ∧ cd.user = r.user ∧ (cd.rp = none ∨ cd.rp = some r.rp) ∧
      (∀ n, cd.signatureCount = some n → n ≤ r.att.authData.signCount) ∧
      ∀ r', r'.credential.rawId = r.credential.rawId →
        ∃ s', reg.registerAssertion r' s1 = (.ok none, s')

/-- C52: a registration followed by an authentication with the same credential.
`ad`, `raw` belong to the registration, `ad'`, `raw'` to the authentication, whose
counter is larger. -/
theorem C52_honest_ceremonies {σ : Type} {env : Env} (codec : CodecLaws env) (json : JsonLaw env)
    {reg : Registrar σ} (keeps : KeepsRegistrations reg) (s : σ)
    {a : AttestationArgs} {a' : AssertionArgs} {cdj ob raw cdj' raw' sig : Bytes}
    {handle : Option Bytes} {chText chText' origin origin' : String}
    {ctb ctb' : Option ClientTokenBinding} {ad ad' : AuthData}
    {acd : AttestedCredentialData} {k : CPK}
    -- registration of a new credential
    (hnew : (reg.getCredentialData a.credential.rawId s).1 = .ok none)
    (hresp : a.credential.response = .attestation cdj ob)
    (hcdj : ClientDataText "webauthn.create" chText origin ctb cdj)
    (hch : Base64UrlText chText a.expectedChallenge)
    (hob : EncodedNoneAttestation env raw ob)
    (had : EncodedAuthData env ad raw) (hacd : ad.attested = some acd)
    (hkey : acd.credentialPublicKey = some k)
    (hrp : RpHashOk env raw a.rp.id) (hup : FlagSet raw 0)
    (huv : a.requireUserVerification = true → FlagSet raw 2)
    (hext : ExtensionsOk a.expectedExtensions ad.extensions)
    (hexp : ExpectedOk env a.expectedOrigin) (horigin : OriginAllowed env a.expectedOrigin origin)
    (htb : TokenBindingOk a.tokenBinding ctb)
    -- authentication by the same user with the same credential at the same Relying Party
    (hid : a'.credential.rawId = a.credential.rawId)
    (hallow : AllowOk a'.allowCredentials a.credential.rawId)
    (hresp' : a'.credential.response = .assertion cdj' raw' sig handle)
    (hcdj' : ClientDataText "webauthn.get" chText' origin' ctb' cdj')
    (hch' : Base64UrlText chText' a'.expectedChallenge)
    (huser : a'.user = some a.user ∨ a'.user = none ∧ handle ≠ none)
    (hhandle : ∀ h, handle = some h → h = a.user.id)
    (hrpArg : a'.rp = some a.rp)
    (had' : EncodedAuthData env ad' raw') (hrp' : RpHashOk env raw' a.rp.id) (hup' : FlagSet raw' 0)
    (huv' : a'.requireUserVerification = true → FlagSet raw' 2)
    (hext' : ExtensionsOk a'.expectedExtensions ad'.extensions)
    (hsig : SignedBy env k sig (raw' ++ env.sha256 cdj'))
    (hcount : ad.signCount < ad'.signCount)
    (hexp' : ExpectedOk env a'.expectedOrigin) (horigin' : OriginAllowed env a'.expectedOrigin origin')
    (htb' : TokenBindingOk a'.tokenBinding ctb') :
    ∃ s' s'', handleAttestation env reg a s = (.ok (), s') ∧
      handleAssertion env reg a' s' = (.ok (), s'') := by
  obtain ⟨s', hs'⟩ := keeps.accepts ⟨a.credential, ⟨ad, .NONE, .none⟩, .NONE, a.user, a.rp, none⟩ s
    acd k hacd hkey hnew
  obtain ⟨cd, s1, hget, hk, hu, hr, hn, hw⟩ := keeps.finds _ s s' acd k hs' hacd hkey
  have hreg := C52_honest_registration codec json hresp hcdj hch hob had hacd hrp hup huv hext hexp
    horigin htb hs'
  obtain ⟨s'', hs''⟩ := hw ⟨a'.credential, ad', a.user, a.rp⟩ hid
  refine ⟨s', s'', hreg, C52_honest_authentication codec json (cd := cd) (s1 := s1)
    (by rw [hid]; exact hget) (by rw [hid]; exact hallow) hresp' hcdj' hch' ?_ ?_ had' hrp' hup' huv'
    hext' (by rw [hk]; exact hsig) ?_ hexp' horigin' htb' hs''⟩
  · simp only at hu
    rcases huser with h | ⟨h, hne⟩
    · rw [h]
      exact .given a.user handle (by rw [hu]) (fun x hx => by rw [hu]; exact hhandle x hx)
    · rw [h]
      cases handle with
      | none => exact absurd rfl hne
      | some x =>
        have := hhandle x rfl
        rw [this, hu]
        exact .fromHandle
  · rw [hrpArg]
    rcases hr with hr | hr
    · rw [hr]; exact .arg _
    · rw [hr]; exact .both _ _ rfl
  · intro n hn' _
    refine ⟨ad'.signCount, (authDataOf_head (encodedAuthData_of codec had')).2.2.2, ?_⟩
    have := hn n hn'
    simp only at this
    omega

end WebAuthn.Props
