import Verif.Spec.Checks
import Verif.Props.Guards

/-!
# Behind any choice of the checks (C100)

What the application answers behind some of the checks: the conditions on a response are those
of the checks that are there.  Props/ChecksDemo.lean has the responses that show that each of
the checks is needed.
-/

namespace WebAuthn.Flask

open WebAuthn.Spec WebAuthn.Props

section
variable {app : App} {on : List Check}

local notation "rep" => checkedReply app on

/-- C100: behind some of the checks the application accepts a registration that meets the
conditions of these. -/
theorem C100_registration (codec : CodecLaws app.env) (json : JsonLaw app.env)
    {evs pre pre0 : List Event} {e e0 : Event} {f : Form} {now t t0 : Int} {n n0 : Nat}
    {ch ch0 key : Bytes} {name name0 chText : String} {c : Credential} {cdj ob raw : Bytes}
    {ad : AuthData} {acd : AttestedCredentialData} {k : CPK}
    -- the challenge, and one of the user
    (ho : Occurs evs pre e) (hi : IssuesBy rep pre e n ch t name0) (ht : now - t ≤ 60000)
    (ho0 : Occurs evs pre0 e0) (hi0 : IssuesBy rep pre0 e0 n0 ch0 t0 name)
    -- the form and the response of the browser
    (hf : Submits app f n c name) (hresp : c.response = .attestation cdj ob)
    (hcdj : ClientDataText "webauthn.create" chText "http://localhost:5000" none cdj)
    (hch : Base64UrlText chText ch) (hob : EncodedNoneAttestation app.env raw ob)
    -- the authenticator data
    (had : EncodedAuthData app.env ad raw) (hacd : ad.attested = some acd)
    (hk : acd.credentialPublicKey = some k) (hkey : coseKey app.env k = .ok key)
    (hrp : RpHashOk app.env raw "localhost") (hup : FlagSet raw 0)
    -- the credential id is new
    (hnew : ∀ pre e name k, Occurs evs pre e → ¬ RegistersBy rep app pre e c.rawId name k)
    -- the checks
    (hsingle : .single ∈ on → ∀ pre e t c name, Occurs evs pre e → ¬ SucceedsBy rep app pre e t n c name)
    (hown : .own ∈ on → name0 = name)
    (howner : .owner ∈ on → ∀ pre e id k, Occurs evs pre e → ¬ RegistersBy rep app pre e id name k)
    (hattested : .attested ∈ on → acd.credentialId = c.rawId)
    (hgood : .key ∈ on → KeyAlg k .ES256 ∧ Profile k)
    (hlong : .long ∈ on → 16 ≤ c.rawId.length) :
    rep evs (.registrationResponse f now) = success := by
  obtain ⟨h1, h2⟩ := issuesBy_guarded.mp hi
  have ho1 := occurs_servedOf ho h1
  obtain ⟨v, -, hv, hrow⟩ := issued_row ho1 h2
  obtain ⟨g1, g2⟩ := issuesBy_guarded.mp hi0
  obtain ⟨u, hu1, rfl, -⟩ := issued_row (occurs_servedOf ho0 g1) g2
  refine guardedReply_success.mpr ⟨?_, registration_accepted codec json hu1 hrow ht hf hresp hcdj
    hch hob had hacd hk hkey hrp hup fun pre e name' k h h' => ?_⟩
  · have hobj : AttObjOf app.env ob ⟨ad, .NONE, .none⟩ raw := by
      obtain ⟨d, g1, g2, g3, g4, g5⟩ := hob
      have := codec.roundTrip g4 g5 []
      rw [List.append_nil] at this
      exact ⟨d, [], [], this, g3, encodedAuthData_of codec had, g1, g2, rfl, rfl⟩
    have hcons := attests_consistent (env := app.env) (c := c) (k := k)
      ⟨cdj, ob, _, raw, acd, hresp, hobj, hacd, hk⟩
    have hdata := attestedData_iff.mpr ⟨cdj, ob, _, raw, hresp, hobj, hacd, rfl⟩
    have hreg : ∀ (good : Credential → AttestedCredentialData → Bool) m log db, good c acd = true →
        registering app good m log db (.registrationResponse f now) = none := by
      intro good m log db hgood
      simp [registering, submission_iff.mpr hf, hdata, hgood]
    refine List.findSome?_eq_none_iff.mpr fun g hg => ?_
    rw [guardedRun_db]
    obtain ⟨x, hx, rfl⟩ := List.mem_map.mp hg
    cases x with
    | single =>
      dsimp only [Check.guard]
      exact unused_none rfl hf (hsingle hx) _
    | own =>
      dsimp only [Check.guard]
      exact ownChallenge_none rfl hf ho1 (hown hx ▸ h2) _
    | owner =>
      have htaken : taken app (.registrationResponse f now)
          (run app (servedOf app (on.map (Check.guard app)) evs)) = false := by
        simp only [taken]
        cases hread : readResponse app true f now (run app (servedOf app (on.map (Check.guard app)) evs)) with
        | error r => rfl
        | ok x =>
          obtain ⟨c', ch', u'⟩ := x
          obtain ⟨n', name', e1, -, -, e2, -⟩ := readResponse_ok_iff.mp hread
          obtain ⟨-, -, rfl⟩ := submits_unique hf e1
          obtain ⟨e3, e4⟩ := userNamed_some e2
          simp only [List.any_eq_false, beq_iff_eq]
          intro row hrow hid
          have inv := inv_run app (servedOf app (on.map (Check.guard app)) evs)
          obtain ⟨pre, e, v, k', h3, h4, h5, h6, -⟩ := inv.credentials row hrow
          obtain rfl : v = u' := inv.userId_unique h4 e3 (h5.trans hid)
          obtain ⟨pre', h7, rfl, h8⟩ := servedOf_occurs h3
          exact howner hx pre' e _ k' h7 (registersBy_guarded.mpr ⟨h8, e4 ▸ h6⟩)
      simp [Check.guard, unowned, htaken]
    | attested =>
      dsimp only [Check.guard]
      exact hreg _ _ _ _ (by simp [hattested hx])
    | key =>
      dsimp only [Check.guard]
      refine hreg _ _ _ _ ?_
      simp only [hk, Option.all_some, Bool.and_eq_true]
      exact ⟨algIn_iff.mpr ⟨_, List.mem_singleton_self _, (hgood hx).1⟩,
        (webAuthnKey_iff hcons).mpr (hgood hx).2⟩
    | long =>
      dsimp only [Check.guard]
      exact hreg _ _ _ _ (by simpa using hlong hx)
    | above => rfl
  · obtain ⟨pre', h3, rfl, h4⟩ := servedOf_occurs h
    exact hnew pre' e name' k h3 (registersBy_guarded.mpr ⟨h4, h'⟩)

/-- C100: behind some of the checks the application accepts a login that meets the conditions
of these. -/
theorem C100_login (codec : CodecLaws app.env) (json : JsonLaw app.env)
    {evs pre pre' : List Event} {e e' : Event} {f : Form} {now t : Int} {n : Nat} {ch : Bytes}
    {name name0 chText : String} {c : Credential} {cdj raw sig : Bytes} {handle : Option Bytes}
    {ad : AuthData} {k : CPK}
    -- the challenge and the registration
    (ho : Occurs evs pre e) (hi : IssuesBy rep pre e n ch t name0) (ht : now - t ≤ 60000)
    (ho' : Occurs evs pre' e') (hr : RegistersBy rep app pre' e' c.rawId name k)
    -- the form and the response of the browser
    (hf : Submits app f n c name) (hresp : c.response = .assertion cdj raw sig handle)
    (hcdj : ClientDataText "webauthn.get" chText "http://localhost:5000" none cdj)
    (hch : Base64UrlText chText ch)
    (hhandle : ∀ h, handle = some h →
      ∃ u ∈ (guardedRun app (on.map (Check.guard app)) evs).2.users, u.username = name ∧ u.handle = h)
    -- the authenticator data and its signature
    (had : EncodedAuthData app.env ad raw) (hrp : RpHashOk app.env raw "localhost")
    (hup : FlagSet raw 0) (hsig : SignedBy app.env k sig (raw ++ app.env.sha256 cdj))
    (hcount : ∀ pre e m, Occurs evs pre e → AuthenticatesBy rep app pre e c.rawId m → m < ad.signCount)
    -- the checks
    (hsingle : .single ∈ on → ∀ pre e t c name, Occurs evs pre e → ¬ SucceedsBy rep app pre e t n c name)
    (hown : .own ∈ on → name0 = name)
    (habove : .above ∈ on → ∀ pre e m, Occurs evs pre e → BeginsBy rep app pre e c.rawId m → m ≠ 0 →
      m < ad.signCount) :
    rep evs (.authenticationResponse f now) = success := by
  obtain ⟨h1, h2⟩ := issuesBy_guarded.mp hi
  have ho1 := occurs_servedOf ho h1
  obtain ⟨v, -, hv, hrow⟩ := issued_row ho1 h2
  obtain ⟨h3, h4⟩ := registersBy_guarded.mp hr
  obtain ⟨u, row, hu1, rfl, -⟩ := registered_row (occurs_servedOf ho' h3) h4
  rw [guardedRun_db] at hhandle
  refine guardedReply_success.mpr ⟨?_, authentication_accepted codec json hu1 hrow ht
    (occurs_servedOf ho' h3) h4 hf hresp hcdj hch (fun h hh => ?_) had hrp hup hsig
    fun pre e m h h' => ?_⟩
  · refine List.findSome?_eq_none_iff.mpr fun g hg => ?_
    rw [guardedRun_db]
    obtain ⟨x, hx, rfl⟩ := List.mem_map.mp hg
    cases x with
    | single =>
      dsimp only [Check.guard]
      exact unused_none rfl hf (hsingle hx) _
    | own =>
      dsimp only [Check.guard]
      exact ownChallenge_none rfl hf ho1 (hown hx ▸ h2) _
    | owner => rfl
    | attested => rfl
    | key => rfl
    | long => rfl
    | above =>
      simp only [Check.guard, aboveInitial, submission_iff.mpr hf, Option.bind_some,
        assertedCount_of hresp (encodedAuthData_of codec had), ite_eq_right_iff, reduceCtorEq, imp_false,
        Bool.not_eq_true, List.any_eq_false]
      rintro ⟨e', r⟩ hmem
      obtain ⟨pre, ho, hp, hr⟩ := log_mem.mp hmem
      cases e' with
      | registrationResponse f1 t1 =>
        rw [← Bool.not_eq_true]
        simp only [Bool.and_eq_true, succeeded_iff, Option.any_eq_true, beq_iff_eq, Prod.exists,
          bne_iff_ne, decide_eq_true_eq]
        rintro ⟨rfl, n1, c1, name1, hs, hid, acd, m, hd, hm, hle⟩
        obtain ⟨cdj1, ob1, o1, raw1, g1, g2, -, rfl⟩ := attestedData_iff.mp hd
        have := habove hx pre _ _ ho ⟨f1, t1, n1, c1, name1, rfl, hr, submission_iff.mp hs, hid,
          hasInitialCounter_of g1 g2⟩ hm
        omega
      | authenticationResponse f1 t1 => rfl
      | registrationRequest _ _ _ _ => rfl
      | authenticationRequest _ _ _ => rfl
  · obtain ⟨w, hw1, hw2, hw3⟩ := hhandle h hh
    obtain rfl : w = u := pairwise_unique (inv_run app _).names hw1 hu1 hw2
    exact hw3
  · obtain ⟨q, h5, rfl, h6⟩ := servedOf_occurs h
    obtain ⟨f', t', n', c', name', m', rfl, e1, e2, e3, rfl, e4⟩ := h'
    exact_mod_cast hcount q _ m' h5
      ⟨f', t', n', c', name', rfl, guardedReply_success.mpr ⟨h6, e1⟩, e2, e3, e4⟩

/-- C100: requests of challenges are not refused. -/
theorem C100_requests {evs : List Event} {e : Event} (he : formIn e = none) :
    rep evs e = reply app (servedOf app (on.map (Check.guard app)) evs) e := by
  refine guardedReply_passes (List.findSome?_eq_none_iff.mpr fun g hg => ?_)
  obtain ⟨x, hx, rfl⟩ := List.mem_map.mp hg
  cases e with
  | registrationResponse f1 t1 => cases he
  | authenticationResponse f1 t1 => cases he
  | registrationRequest _ _ _ _ => cases x <;> rfl
  | authenticationRequest _ _ _ => cases x <;> rfl

/-- Where there are only requests of challenges, all are served. -/
theorem served_requests {evs : List Event} (h : ∀ e ∈ evs, formIn e = none) :
    servedOf app (on.map (Check.guard app)) evs = evs := by
  induction evs using List.reverseRecOn with
  | nil => rfl
  | append_singleton l a ih =>
    have hl := ih fun e he => h e (List.mem_append_left _ he)
    have ha := h a (by simp)
    rcases servedOf_snoc (app := app) (gs := on.map (Check.guard app)) l a with ⟨-, hs⟩ | ⟨hp, -⟩
    · rw [hs, hl]
    · refine absurd (List.findSome?_eq_none_iff.mpr fun g hg => ?_) hp
      obtain ⟨x, hx, rfl⟩ := List.mem_map.mp hg
      cases a with
      | registrationResponse f1 t1 => cases ha
      | authenticationResponse f1 t1 => cases ha
      | registrationRequest _ _ _ _ => cases x <;> rfl
      | authenticationRequest _ _ _ => cases x <;> rfl

theorem issuesBy_checked {pre : List Event} {e : Event} {n : Nat} {ch : Bytes} {t : Int} {name : String}
    (h : ∀ e ∈ pre, formIn e = none) (hi : Issues app pre e n ch t name) :
    IssuesBy rep pre e n ch t name := by
  refine ⟨?_, hi.2⟩
  have he : formIn e = none := by rcases hi.2 with ⟨_, rfl⟩ | rfl <;> rfl
  rw [C100_requests he, served_requests h]
  exact hi.1

theorem no_success {evs pre : List Event} {e : Event} {t : Int} {n : Nat} {c : Credential} {name : String}
    (h : ∀ e ∈ evs, formIn e = none) (ho : Occurs evs pre e) : ¬ SucceedsBy rep app pre e t n c name := by
  rintro ⟨-, f, he, -⟩
  obtain ⟨post, rfl⟩ := ho
  have := h e (by simp)
  rcases he with rfl | rfl <;> cases this

theorem no_registration {evs pre : List Event} {e : Event} {id : Bytes} {name : String} {k : CPK}
    (h : ∀ e ∈ evs, formIn e = none) (ho : Occurs evs pre e) : ¬ RegistersBy rep app pre e id name k := by
  rintro ⟨f, t, n, c, cdj, ob, o, raw, acd, rfl, hs, hf, -⟩
  exact no_success h ho ⟨hs, f, Or.inl rfl, hf⟩

end

/-- `Strong` is the claims of the checks. -/
theorem strong_iff {rep : List Event → Event → Reply} {app : App} :
    Strong rep app ↔ ∀ c : Check, c.Claim rep app := by
  constructor
  · rintro ⟨h1, h2, h3, h4, h5, h6, h7, h8⟩ c
    cases c with
    | single => exact h1
    | own => exact h2
    | owner => exact h3
    | attested => exact h4
    | key => exact ⟨h5, h6⟩
    | long => exact h7
    | above => exact h8
  · exact fun h => ⟨h .single, h .own, h .owner, h .attested, (h .key).1, (h .key).2, h .long, h .above⟩

/-- C100: with the check, behind whatever others, its part of `Strong` holds. -/
theorem C100_each {app : App} (codec : CodecLaws app.env) (json : JsonLaw app.env) {on : List Check}
    {c : Check} (h : c ∈ on) : c.Claim (checkedReply app on) app := by
  have hg : c.guard app ∈ on.map (Check.guard app) := List.mem_map_of_mem h
  cases c with
  | single => exact C84_single_use hg
  | own => exact C84_user_bound hg
  | owner => exact C84_owner_only codec json hg
  | attested => exact fun _ _ _ _ _ _ _ _ _ _ _ h1 h2 h3 h4 h5 => C84_attested_id hg h1 h2 h3 h4 h5
  | key => exact ⟨fun _ _ _ _ _ h => (C84_good_key hg h).1, fun _ _ _ _ _ h => (C84_good_key hg h).2⟩
  | long => exact fun _ _ _ _ _ h => C84_long_id hg h
  | above => exact C84_counter_above hg

/-- C100: all the checks are enough, in any order and with any of them repeated. -/
theorem C100_enough {on : List Check} (h : ∀ c, c ∈ on) : ChecksSuffice on :=
  fun _ codec json => strong_iff.mpr fun c => C100_each codec json (h c)

end WebAuthn.Flask
