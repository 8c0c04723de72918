import Verif.Props.Contract
import Verif.Spec.Exchange

/-!
# Honest users are served, whichever packages are installed (C96, C97)
-/

namespace WebAuthn.Flask

open WebAuthn WebAuthn.Spec WebAuthn.Props

/-- The example application with the repaired package, behind its own checks. -/
def fixedReply (app : App) : List Event → Event → Reply :=
  packageReply (fun _ => repairedPackage app.env appPolicy) app (appGuards app)

section
variable {app : App} {rule : CounterRule} {rep : List Event → Event → Reply} {evs : List Event} {db : Db}

theorem Ledger.find_name (h : Ledger rep app evs db) {u : User} (hu : u ∈ db.users) :
    db.userNamed u.username = some u :=
  find_unique hu (by simp) fun v hv hn => pairwise_unique h.names hv hu (by simpa using hn)

theorem Ledger.find_handle (h : Ledger rep app evs db) {u : User} (hu : u ∈ db.users) :
    db.userOfHandle u.handle = some u :=
  find_unique hu (by simp) fun v hv hn => pairwise_unique h.handles hv hu (by simpa using hn)

theorem Ledger.find_id (h : Ledger rep app evs db) {u : User} (hu : u ∈ db.users) :
    db.userOfId u.id = some u :=
  find_unique hu (by simp) fun v hv hn => user_unique h.userIds hv hu (by simpa using hn)

theorem Ledger.find_challenge (h : Ledger rep app evs db) {c : Challenge} (hc : c ∈ db.challenges) :
    db.challenge (some c.id) = some c := by
  refine find_unique hc (by simp) fun v hv hn => ?_
  obtain ⟨i, hi⟩ := List.mem_iff_getElem?.mp hc
  obtain ⟨j, hj⟩ := List.mem_iff_getElem?.mp hv
  have h1 := h.challengeIds i c hi
  have h2 := h.challengeIds j v hj
  simp only [beq_iff_eq] at hn
  obtain rfl : i = j := by omega
  rw [hi] at hj
  exact (Option.some.inj hj).symm

theorem Ledger.find_credential (h : Ledger rep app evs db) {c : CredentialRow} (hc : c ∈ db.credentials) :
    db.credential c.id = some c :=
  find_unique hc (by simp) fun v hv hn => pairwise_unique h.credentialIds hv hc (by simpa using hn)

variable {pkgs : Versions} {gs : List Guard}

theorem reply_admitted {e : Event} (h : Admitted pkgs app gs evs e) : packageReply pkgs app gs evs e =
    (packageStep (pkgs (packageRun pkgs app gs evs).1) app e (packageRun pkgs app gs evs).2).1 := by
  rw [packageReply, serve_admitted h]

/-- Users stay. -/
theorem effect_users {e : Event} {db db' : Db} {r : Reply} (h : Effect rule app e db r db') {u : User}
    (hu : u ∈ db.users) : u ∈ db'.users := by
  have key : ∀ {db'}, MayAddUser db db' → u ∈ db'.users := by
    rintro _ (_ | ⟨_, _, _⟩)
    · exact hu
    · exact List.mem_append_left _ hu
  cases h with
  | quiet h => exact key h
  | issue h =>
    have := key h
    exact this
  | register => exact hu
  | login => exact hu

theorem package_users (con : ∀ log, ContractBy rule app.env (pkgs log)) {u : User} (evs more : List Event)
    (hu : u ∈ (packageRun pkgs app gs evs).2.users) : u ∈ (packageRun pkgs app gs (evs ++ more)).2.users := by
  rw [packageRun, List.foldl_append]
  change u ∈ (more.foldl _ (packageRun pkgs app gs evs)).2.users
  generalize packageRun pkgs app gs evs = s at hu ⊢
  induction more generalizing s with
  | nil => exact hu
  | cons e more ih =>
    refine ih _ ?_
    show u ∈ (packageServe pkgs app gs e s).2.2.users
    unfold packageServe
    split
    · exact hu
    · exact effect_users (effect_of (con _) e s.2) hu

theorem package_unused {e : Event} {f : Form} {n : Nat} {c : Credential} {name : String}
    (he : formIn e = some f) (hf : Submits app f n c name)
    (hunused : ∀ pre e t c name, Occurs evs pre e → ¬ SucceedsBy (packageReply pkgs app gs) app pre e t n c name)
    (db : Db) : unused app (packageRun pkgs app gs evs).1 db e = none := by
  simp only [unused, he, Option.bind_some, submission_iff.mpr hf, ite_eq_right_iff, reduceCtorEq,
    imp_false, Bool.not_eq_true, List.any_eq_false]
  rintro ⟨e', r⟩ hmem
  obtain ⟨pre, ho, hp, hr⟩ := served_mem.mp hmem
  rw [← Bool.not_eq_true]
  simp only [Bool.and_eq_true, succeeded_iff, Option.any_eq_true, Option.bind_eq_some_iff, beq_iff_eq,
    Prod.exists]
  rintro ⟨rfl, n', c', name', ⟨f', hf', hs⟩, rfl⟩
  have : ∃ t, e' = .registrationResponse f' t ∨ e' = .authenticationResponse f' t := by
    cases e' with
    | registrationResponse f1 t1 => cases hf'; exact ⟨t1, Or.inl rfl⟩
    | authenticationResponse f1 t1 => cases hf'; exact ⟨t1, Or.inr rfl⟩
    | registrationRequest _ _ _ _ => cases hf'
    | authenticationRequest _ _ _ => cases hf'
  obtain ⟨t, ht⟩ := this
  exact hunused pre e' t c' name' ho ⟨hr, f', ht, submission_iff.mp hs⟩

/-- The checks of the application let requests of challenges pass. -/
theorem admits_request (hgs : ∀ g ∈ gs, g ∈ appGuards app) {e : Event} (he : formIn e = none) :
    Admitted pkgs app gs evs e := by
  refine List.findSome?_eq_none_iff.mpr fun g hg => ?_
  have hg := hgs g hg
  simp only [appGuards, List.mem_cons, List.not_mem_nil, or_false] at hg
  cases e with
  | registrationResponse f1 t1 => cases he
  | authenticationResponse f1 t1 => cases he
  | registrationRequest _ _ _ _ => rcases hg with rfl | rfl | rfl | rfl | rfl <;> rfl
  | authenticationRequest _ _ _ => rcases hg with rfl | rfl | rfl | rfl | rfl <;> rfl

/-- An honest registration is read, passes the checks of the application, and is taken by the
registrar. -/
theorem honest_registration (asc : Ascending rule) (con : ∀ log, ContractBy rule app.env (pkgs log)) (hgs : ∀ g ∈ gs, g ∈ appGuards app)
    {pre : List Event} {e : Event} {f : Form} {now t : Int} {n : Nat} {ch key : Bytes}
    {name : String} {c : Credential} {cdj ob raw : Bytes} {o : AttestationObject}
    {acd : AttestedCredentialData} {k : CPK}
    (ho : Occurs evs pre e) (hi : IssuesBy (packageReply pkgs app gs) pre e n ch t name) (ht : now - t ≤ 60000)
    (hunused : ∀ pre e t c name, Occurs evs pre e →
      ¬ SucceedsBy (packageReply pkgs app gs) app pre e t n c name)
    (hf : Submits app f n c name) (hresp : c.response = .attestation cdj ob)
    (hob : AttObjOf app.env ob o raw) (hacd : o.authData.attested = some acd)
    (hk : acd.credentialPublicKey = some k) (hkey : coseKey app.env k = .ok key)
    (hlong : 16 ≤ c.rawId.length)
    (hnew : ∀ pre e name k, Occurs evs pre e →
      ¬ RegistersBy (packageReply pkgs app gs) app pre e c.rawId name k)
    (hfirst : ∀ pre e id k, Occurs evs pre e → ¬ RegistersBy (packageReply pkgs app gs) app pre e id name k) :
    Admitted pkgs app gs evs (.registrationResponse f now) ∧
      ∃ u db', u.username = name ∧
        readResponse app true f now (packageRun pkgs app gs evs).2 = .ok (c, ⟨n, ch, t, u.id⟩, u) ∧
        ∀ ty path, (registrar app.env).registerAttestation ⟨c, o, ty, u.entity, rp, path⟩
          (packageRun pkgs app gs evs).2 = (.ok none, db') := by
  have led := ledger_run (gs := gs) asc con evs
  obtain ⟨u, hu1, rfl, hrow⟩ := led.issued _ _ _ _ _ _ ho hi
  have hread : readResponse app true f now _ = .ok (c, ⟨n, ch, t, u.id⟩, u) :=
    readResponse_ok_iff.mpr ⟨n, u.username, hf, by rw [hresp]; rfl, led.find_challenge hrow,
      led.find_name hu1, ht⟩
  have hdata := attestedData_iff.mpr ⟨cdj, ob, _, raw, hresp, hob, hacd, rfl⟩
  refine ⟨?_, u, { (packageRun pkgs app gs evs).2 with
    credentials := (packageRun pkgs app gs evs).2.credentials ++ [⟨c.rawId, none, key, u.id⟩] }, rfl, hread, ?_⟩
  · refine List.findSome?_eq_none_iff.mpr fun g hg => ?_
    have hg := hgs g hg
    simp only [appGuards, List.mem_cons, List.not_mem_nil, or_false] at hg
    rcases hg with rfl | rfl | rfl | rfl | rfl
    · exact package_unused rfl hf hunused _
    · have h1 := led.find_challenge hrow
      have h2 := led.find_name hu1
      simp only [ownChallenge, formIn, Option.bind_some, submission_iff.mpr hf]
      simp only at h1
      rw [h1, h2]
      simp
    · have : taken app (.registrationResponse f now) (packageRun pkgs app gs evs).2 = false := by
        simp only [taken, hread, List.any_eq_false, beq_iff_eq]
        intro row hrow hid
        obtain ⟨pre, e, v, k', h3, h4, h5, h6, -⟩ := led.credentials row hrow
        obtain rfl : v = u := user_unique led.userIds h4 hu1 (h5.trans hid)
        exact hfirst pre e _ k' h3 h6
      simp [unowned, this]
    · simp [longId, registering, submission_iff.mpr hf, hdata, hlong]
    · rfl
  · intro ty path
    have hany : ((packageRun pkgs app gs evs).2.credentials.any fun r => r.id == c.rawId) = false := by
      rw [List.any_eq_false]
      intro r hr he
      obtain ⟨pre', e', v, k', h1, -, -, h2, -⟩ := led.credentials r hr
      exact hnew pre' e' _ k' h1 ((show r.id = c.rawId by simpa using he) ▸ h2)
    have hu : (packageRun pkgs app gs evs).2.userOfHandle u.handle = some u := led.find_handle hu1
    show registerAttestation app.env _ _ = _
    simp only [registerAttestation, User.entity, hacd, hu, hk, hkey, hany, Bool.false_eq_true, if_false]

/-- An honest login is read, passes the checks of the application, finds its credential, and is taken
by the registrar. -/
theorem honest_login (asc : Ascending rule) (con : ∀ log, ContractBy rule app.env (pkgs log)) (codec : CodecLaws app.env)
    (hgs : ∀ g ∈ gs, g ∈ appGuards app)
    {pre pre' : List Event} {e e' : Event} {f : Form} {now t : Int} {n : Nat} {ch : Bytes}
    {name : String} {c : Credential} {cdj raw sig : Bytes} {handle : Option Bytes} {ad : AuthData} {k : CPK}
    (ho : Occurs evs pre e) (hi : IssuesBy (packageReply pkgs app gs) pre e n ch t name) (ht : now - t ≤ 60000)
    (hunused : unused app ∈ gs → ∀ pre e t c name, Occurs evs pre e →
      ¬ SucceedsBy (packageReply pkgs app gs) app pre e t n c name)
    (ho' : Occurs evs pre' e') (hr : RegistersBy (packageReply pkgs app gs) app pre' e' c.rawId name k)
    (hstored : asStored k = k)
    (hf : Submits app f n c name) (hresp : c.response = .assertion cdj raw sig handle)
    (hhandle : ∀ h, handle = some h →
      ∃ u ∈ (packageRun pkgs app gs evs).2.users, u.username = name ∧ u.handle = h)
    (had : AuthDataOf app.env raw ad)
    (hcount : ∀ pre e m, Occurs evs pre e →
      AuthenticatesBy (packageReply pkgs app gs) app pre e c.rawId m → rule m ad.signCount)
    (hinitial : ∀ pre e m, Occurs evs pre e →
      BeginsBy (packageReply pkgs app gs) app pre e c.rawId m → m ≠ 0 → m < ad.signCount) :
    Admitted pkgs app gs evs (.authenticationResponse f now) ∧
      ∃ u db' count, readResponse app false f now (packageRun pkgs app gs evs).2 =
          .ok (c, ⟨n, ch, t, u.id⟩, u) ∧
        (registrar app.env).getCredentialData c.rawId (packageRun pkgs app gs evs).2 =
          (.ok (some ⟨k, count, u.entity, none⟩), (packageRun pkgs app gs evs).2) ∧
        (∀ h, handle = some h → u.handle = h) ∧ CounterOkBy rule count raw false ∧
        (registrar app.env).registerAssertion ⟨c, ad, u.entity, rp⟩ (packageRun pkgs app gs evs).2 =
          (.ok none, db') := by
  have led := ledger_run (gs := gs) asc con evs
  obtain ⟨u, hu1, rfl, hrow⟩ := led.issued _ _ _ _ _ _ ho hi
  have hread : readResponse app false f now _ = .ok (c, ⟨n, ch, t, u.id⟩, u) :=
    readResponse_ok_iff.mpr ⟨n, u.username, hf, by rw [hresp]; rfl, led.find_challenge hrow,
      led.find_name hu1, ht⟩
  obtain ⟨v, row, hv1, hv2, hrow', hid, huid, hkey⟩ := led.rows _ _ _ _ _ ho' hr
  obtain rfl : v = u := pairwise_unique led.names hv1 hu1 hv2
  have hcred : (packageRun pkgs app gs evs).2.credential c.rawId = some row := hid ▸ led.find_credential hrow'
  have hd : ∃ d, CoseKeyOf d k := by
    obtain ⟨_, _, _, _, _, _, _, _, _, -, -, -, -, -, e1, e2, e3⟩ := hr
    exact attested_key_dict e1 e2 e3
  have hparse := C27_stored_key codec (hd.imp fun _ => parseCoseKeyDict_ok_iff.mpr) hkey
  rw [hstored] at hparse
  have hget : credentialData app.env c.rawId (packageRun pkgs app gs evs).2 =
      .ok (some ⟨k, row.count, v.entity, none⟩) := by
    simp only [credentialData, hcred, hparse, ok_bind, huid, led.find_id hu1]
    rfl
  refine ⟨?_, v, { (packageRun pkgs app gs evs).2 with
      credentials := (packageRun pkgs app gs evs).2.credentials.map (setCount c.rawId ad.signCount) }, row.count,
    hread, congrArg (·, (packageRun pkgs app gs evs).2) hget, fun h hh => ?_, ?_, ?_⟩
  · refine List.findSome?_eq_none_iff.mpr fun g hg => ?_
    have hin := hgs g hg
    simp only [appGuards, List.mem_cons, List.not_mem_nil, or_false] at hin
    rcases hin with rfl | rfl | rfl | rfl | rfl
    · exact package_unused rfl hf (hunused hg) _
    · have h1 := led.find_challenge hrow
      have h2 := led.find_name hu1
      simp only [ownChallenge, formIn, Option.bind_some, submission_iff.mpr hf]
      simp only at h1
      rw [h1, h2]
      simp
    · rfl
    · rfl
    · simp only [aboveInitial, submission_iff.mpr hf, Option.bind_some,
        assertedCount_of hresp had, ite_eq_right_iff, reduceCtorEq, imp_false,
        Bool.not_eq_true, List.any_eq_false]
      rintro ⟨e', r⟩ hmem
      obtain ⟨pre, ho, hp, hr⟩ := served_mem.mp hmem
      cases e' with
      | registrationResponse f1 t1 =>
        rw [← Bool.not_eq_true]
        simp only [Bool.and_eq_true, succeeded_iff, Option.any_eq_true, beq_iff_eq, Prod.exists,
          bne_iff_ne, decide_eq_true_eq]
        rintro ⟨rfl, n1, c1, name1, hs, hid, acd, m, hd, hm, hle⟩
        obtain ⟨cdj1, ob1, o1, raw1, g1, g2, -, rfl⟩ := attestedData_iff.mp hd
        have := hinitial pre _ _ ho ⟨f1, t1, n1, c1, name1, rfl, hr, submission_iff.mp hs, hid,
          hasInitialCounter_of g1 g2⟩ hm
        omega
      | authenticationResponse f1 t1 => rfl
      | registrationRequest _ _ _ _ => rfl
      | authenticationRequest _ _ _ => rfl
  · obtain ⟨w, hw1, hw2, hw3⟩ := hhandle h hh
    obtain rfl : w = v := pairwise_unique led.names hw1 hu1 hw2
    exact hw3
  · intro m hm _
    obtain ⟨pre'', e'', m', h1, h2, rfl⟩ := led.counted row hrow' m hm
    exact ⟨ad.signCount, (authDataOf_head had).2.2.2, hcount pre'' e'' m' h1 (hid ▸ h2)⟩
  · show registerAssertion _ _ = _
    simp only [registerAssertion, hcred]

/-- A key as WebAuthn prescribes is stored as it is, and usable. -/
theorem profile_usable {c : Credential} {k : CPK} (hk : Attests app.env c k) (h : Profile k) :
    asStored k = k ∧ UsableKey k := by
  have hc := attests_consistent hk
  obtain ⟨h8, h9, h10, -⟩ := h
  constructor
  · cases k with
    | base b => rfl
    | ec2 b x y crv => cases b; simp_all [asStored, storedBase, baseOf]
    | okp b crv x => cases b; simp_all [asStored, storedBase, baseOf]
  have hops : ∀ ops, (baseOf k).keyOps = some ops → ∃ o ∈ ops, o.id = .VERIFY := by
    intro ops ho
    rw [h9] at ho
    cases ho
  cases k with
  | base b => exact hc.elim
  | ec2 b x y crv =>
    obtain ⟨hkty, -, m, hm, ha⟩ := hc
    have halg : ∀ m', b.alg = some m' → m'.id = m.id := by
      intro m' hm'
      rw [hm] at hm'
      cases hm'
      rfl
    rcases ha with ha | ha | ha <;> rw [ha] at halg
    · exact ⟨_, .ec2 _ _ _ _ _ _ .es256, by simp only [baseOf, hkty]; exact .es256, halg, hops⟩
    · exact ⟨_, .ec2 _ _ _ _ _ _ .es384, by simp only [baseOf, hkty]; exact .es384, halg, hops⟩
    · exact ⟨_, .ec2 _ _ _ _ _ _ .es512, by simp only [baseOf, hkty]; exact .es512, halg, hops⟩
  | okp b crv x =>
    obtain ⟨hkty, -, m, hm, ha⟩ := hc
    have halg : ∀ m', b.alg = some m' → m'.id = m.id := by
      intro m' hm'
      rw [hm] at hm'
      cases hm'
      rfl
    rw [ha] at halg
    exact ⟨_, .okp _ _ _, by simp only [baseOf, hkty]; exact .eddsa, halg, hops⟩

/-! ## C97 -/

/-- C97: the package serves honest users. -/
theorem C97_code_serves {env : Env} (json : JsonLaw env) (algs : List Alg) : Serving env algs (codePackage env) where
  registers := by
    rintro σ reg a s s' cdj ob o raw h1 h2 h3 ⟨chText, og, h4, h5, h6⟩ h7 - h8 h9 - ⟨acd, h10, -⟩ - h11
    refine attestation_accepts.mpr ⟨h1, o, raw, ⟨cdj, ob, h3, ?_, h7, h9, by simp [h10]⟩, h8, h11⟩
    rw [h2]
    exact clientOk_of json h4 h5 (originAllowed_of h1 h6) .none
  logsIn := by
    rintro σ reg a s s' cd s1 user rp ad cdj raw sig handle h1 h2 h3 h4 h5 h6 h7 ⟨chText, og, h8, h9, h10⟩ h11 - - -
      h12 h13 h14
    refine assertion_accepts.mpr ⟨h1, h3, cd, s1, user, rp, ad, h4, ⟨cdj, raw, sig, handle, h5, h6, h7, ?_, h11, h12,
      h13⟩, h14⟩
    rw [h2]
    exact clientOk_of json h8 h9 (originAllowed_of h1 h10) .none

/-- C97: and so does the package with the repairs. -/
theorem C97_repaired_serves {env : Env} {p : Whole.Policy} (json : JsonLaw env) (law : JsonRefusesMark env) :
    Serving env p.algs (repairedPackage env p) where
  registers := by
    rintro σ reg a s s' cdj ob o raw h1 h2 h3 ⟨chText, og, h4, h5, h6⟩ h7 h8 h9 h10 h11 h12 h13 h14
    have hc : ClientAccepted env cdj "webauthn.create" a.expectedChallenge a.expectedOrigin a.tokenBinding := by
      rw [h2]
      exact clientAccepted_of law (clientOk_of json h4 h5 (originAllowed_of h1 h6) .none)
    show Whole.handleAttestation env p reg a s = _
    refine C89_registration_exact.mpr ⟨o, .NONE, none, ⟨h1, ⟨cdj, ob, raw, h3, hc, h7, h8, h10, ?_⟩, h11, h12, h13, ?_⟩,
      h14⟩
    · rw [h9]
      exact .none
    · intro sig x5c h
      rw [h9] at h
      cases h
  logsIn := by
    rintro σ reg a s s' cd s1 user rp ad cdj raw sig handle h1 h2 h3 h4 h5 h6 h7 ⟨chText, og, h8, h9, h10⟩ h11 h12 h13
      h14 h15 h16 h17
    have hc : ClientAccepted env cdj "webauthn.get" a.expectedChallenge a.expectedOrigin a.tokenBinding := by
      rw [h2]
      exact clientAccepted_of law (clientOk_of json h8 h9 (originAllowed_of h1 h10) .none)
    show Whole.handleAssertion env p reg a s = _
    exact C89_login_exact.mpr ⟨cd, s1, user, rp, ad, h4, ⟨h1, h3, h7, ⟨cdj, raw, sig, handle, rp.id, h5, h6, hc,
      .rp h13, h11, h15, h16⟩, h12, h14⟩, h17⟩

/-- C97: an honest registration is accepted if the package that is installed serves honest users,
whatever packages were installed before. -/
theorem C97_registration (asc : Ascending rule) (con : ∀ log, ContractBy rule app.env (pkgs log)) (hgs : ∀ g ∈ gs, g ∈ appGuards app)
    (serving : ServingBy rule app.env [.ES256] (pkgs (packageRun pkgs app gs evs).1))
    {pre : List Event} {e : Event} {f : Form} {now t : Int} {n : Nat} {ch key : Bytes}
    {name chText : String} {c : Credential} {cdj ob raw : Bytes} {o : AttestationObject}
    {acd : AttestedCredentialData} {k : CPK}
    -- the challenge
    (ho : Occurs evs pre e) (hi : IssuesBy (packageReply pkgs app gs) pre e n ch t name) (ht : now - t ≤ 60000)
    (hunused : ∀ pre e t c name, Occurs evs pre e →
      ¬ SucceedsBy (packageReply pkgs app gs) app pre e t n c name)
    -- the form and the response of the browser
    (hf : Submits app f n c name) (hresp : c.response = .attestation cdj ob)
    (hcdj : ClientDataText "webauthn.create" chText "http://localhost:5000" none cdj)
    (hch : Base64UrlText chText ch)
    -- the attestation object
    (hob : AttObjOf app.env ob o raw) (hall : ∃ v, app.env.cborLoad ob = .ok (v, [])) (hnone : o.attStmt = .none)
    -- the authenticator data
    (hacd : o.authData.attested = some acd) (hk : acd.credentialPublicKey = some k)
    (hkey : coseKey app.env k = .ok key) (hrp : RpHashOk app.env raw "localhost") (hup : FlagSet raw 0)
    (hout : OutputsOk o.authData) (halg : KeyAlg k .ES256) (hprofile : Profile k)
    (hid : acd.credentialId = c.rawId) (hlong : 16 ≤ c.rawId.length)
    -- the credential id is new, and the name
    (hnew : ∀ pre e name k, Occurs evs pre e →
      ¬ RegistersBy (packageReply pkgs app gs) app pre e c.rawId name k)
    (hfirst : ∀ pre e id k, Occurs evs pre e →
      ¬ RegistersBy (packageReply pkgs app gs) app pre e id name k) :
    packageReply pkgs app gs evs (.registrationResponse f now) = success := by
  obtain ⟨hadm, u, db', rfl, hread, hreg⟩ := honest_registration asc con hgs ho hi ht hunused hf hresp hob hacd hk hkey
    hlong hnew hfirst
  have hauth : AuthOk app.env raw o.authData "localhost" false none := by
    obtain ⟨_, _, _, -, -, h, -⟩ := id hob
    exact ⟨h, hrp, hup, (by simp), fun l hl => (by cases hl)⟩
  have hh := serving.registers (registrar app.env) (attestationArgs c ⟨n, ch, t, u.id⟩ u) _ db' cdj ob o raw
    (expected_app _) rfl hresp ⟨chText, _, hcdj, hch, List.mem_singleton.mpr rfl⟩ hob hall hnone hauth hout
    ⟨acd, hacd, hid.symm⟩ ⟨acd, k, hacd, hk, ⟨.ES256, List.mem_singleton_self _, halg⟩, hprofile⟩ (hreg _ _)
  rw [reply_admitted hadm, packageStep_registration hread hh]
  rfl

/-- C97: who registered while another package was installed logs in, if the package that is now
installed serves honest users, and the key is as WebAuthn prescribes. -/
theorem C97_login (asc : Ascending rule) (con : ∀ log, ContractBy rule app.env (pkgs log)) (codec : CodecLaws app.env)
    (hgs : ∀ g ∈ gs, g ∈ appGuards app) {algs : List Alg}
    (serving : ServingBy rule app.env algs (pkgs (packageRun pkgs app gs evs).1))
    {pre pre' : List Event} {e e' : Event} {f : Form} {now t : Int} {n : Nat} {ch : Bytes}
    {name chText : String} {c : Credential} {cdj raw sig : Bytes} {handle : Option Bytes}
    {ad : AuthData} {k : CPK}
    -- the challenge and the registration
    (ho : Occurs evs pre e) (hi : IssuesBy (packageReply pkgs app gs) pre e n ch t name) (ht : now - t ≤ 60000)
    (hunused : unused app ∈ gs → ∀ pre e t c name, Occurs evs pre e →
      ¬ SucceedsBy (packageReply pkgs app gs) app pre e t n c name)
    (ho' : Occurs evs pre' e') (hr : RegistersBy (packageReply pkgs app gs) app pre' e' c.rawId name k)
    (hprofile : Profile k)
    -- the form and the response of the browser
    (hf : Submits app f n c name) (hresp : c.response = .assertion cdj raw sig handle)
    (hcdj : ClientDataText "webauthn.get" chText "http://localhost:5000" none cdj)
    (hch : Base64UrlText chText ch)
    (hhandle : ∀ h, handle = some h →
      ∃ u ∈ (packageRun pkgs app gs evs).2.users, u.username = name ∧ u.handle = h)
    -- the authenticator data and its signature
    (had : AuthDataOf app.env raw ad) (hrp : RpHashOk app.env raw "localhost") (hup : FlagSet raw 0)
    (hout : OutputsOk ad) (happ : ¬ AppIdUsed ad) (hsig : SignedBy app.env k sig (raw ++ app.env.sha256 cdj))
    (hcount : ∀ pre e m, Occurs evs pre e →
      AuthenticatesBy (packageReply pkgs app gs) app pre e c.rawId m → rule m ad.signCount)
    (hinitial : ∀ pre e m, Occurs evs pre e →
      BeginsBy (packageReply pkgs app gs) app pre e c.rawId m → m ≠ 0 → m < ad.signCount) :
    packageReply pkgs app gs evs (.authenticationResponse f now) = success := by
  obtain ⟨hstored, husable⟩ : asStored k = k ∧ UsableKey k := by
    obtain ⟨f', t', n', c', cdj', ob', o', raw', acd', -, -, -, -, h1, h2, h3, h4⟩ := id hr
    exact profile_usable ⟨cdj', ob', o', raw', acd', h1, h2, h3, h4⟩ hprofile
  obtain ⟨hadm, u, db', count, hread, hget, hu, hcounter, hreg⟩ := honest_login asc con codec hgs ho hi ht hunused ho' hr
    hstored hf hresp hhandle had hcount hinitial
  have hh := serving.logsIn (registrar app.env) (assertionArgs c ⟨n, ch, t, u.id⟩ u) _ db' _ _ u.entity rp ad cdj raw
    sig handle (expected_app _) rfl (fun l hl => by cases hl) hget hresp (.given _ _ rfl fun h hh => (hu h hh).symm)
    (.arg _) ⟨chText, _, hcdj, hch, List.mem_singleton.mpr rfl⟩
    ⟨had, hrp, hup, (fun h => by cases h), (fun l hl => by cases hl)⟩ hout happ husable hsig hcounter hreg
  rw [reply_admitted hadm, packageStep_login hread hh]
  rfl

/-- C97: requests of challenges are answered as by the application, whatever is installed. -/
theorem C97_requests (hgs : ∀ g ∈ gs, g ∈ appGuards app) {e : Event} (he : formIn e = none) :
    packageReply pkgs app gs evs e = (step app e (packageRun pkgs app gs evs).2).1 := by
  rw [reply_admitted (admits_request hgs he)]
  cases e with
  | registrationResponse f1 t1 => cases he
  | authenticationResponse f1 t1 => cases he
  | registrationRequest _ _ _ _ => rfl
  | authenticationRequest _ _ _ => rfl

/-- C97: what is registered while a package with the strict contract is installed has the attested
id, and a key that was asked for, whatever was installed before. -/
theorem C97_registers {algs : List Alg}
    (con : StrictContractBy rule app.env algs (pkgs (packageRun pkgs app gs evs).1)) {f : Form} {t : Int} {n : Nat}
    {c : Credential} {name : String} (h : packageReply pkgs app gs evs (.registrationResponse f t) = success)
    (hf : Submits app f n c name) {cdj ob raw : Bytes} {o : AttestationObject}
    (hc : c.response = .attestation cdj ob) (ho : AttObjOf app.env ob o raw) :
    RawIdAttests c o.authData ∧ AskedFor algs o.authData :=
  package_attests con h hf hc ho

/-! ## C96 -/

/-- C96: the repaired application accepts an honest registration with whatever attestation that
shows something: in response to an unused challenge, issued to the user at most 60000 ms before,
under a new name, with a key for ES256. -/
theorem C96_registration (json : JsonLaw app.env) (law : JsonRefusesMark app.env)
    {pre : List Event} {e : Event} {f : Form} {now t : Int} {n : Nat} {ch key : Bytes}
    {name chText : String} {c : Credential} {cdj ob raw : Bytes} {o : AttestationObject}
    {acd : AttestedCredentialData} {k : CPK} {ty : AttestationType} {path : TrustedPath}
    -- the challenge
    (ho : Occurs evs pre e) (hi : IssuesBy (fixedReply app) pre e n ch t name) (ht : now - t ≤ 60000)
    (hunused : ∀ pre e t c name, Occurs evs pre e → ¬ SucceedsBy (fixedReply app) app pre e t n c name)
    -- the form and the response of the browser
    (hf : Submits app f n c name) (hresp : c.response = .attestation cdj ob)
    (hcdj : ClientDataText "webauthn.create" chText "http://localhost:5000" none cdj)
    (hch : Base64UrlText chText ch)
    -- the attestation object
    (hob : AttObjOf app.env ob o raw) (hall : ∃ v, app.env.cborLoad ob = .ok (v, []))
    (hshows : StrictlyShows app.env o.authData raw (app.env.sha256 cdj) o.attStmt ty path)
    (hu2f : ∀ sig x5c, o.attStmt = .fidoU2F sig x5c → ShortKey o.authData)
    -- the authenticator data
    (hacd : o.authData.attested = some acd) (hk : acd.credentialPublicKey = some k)
    (hkey : coseKey app.env k = .ok key) (hrp : RpHashOk app.env raw "localhost") (hup : FlagSet raw 0)
    (hout : OutputsOk o.authData) (halg : KeyAlg k .ES256) (hprofile : Profile k)
    (hid : acd.credentialId = c.rawId) (hlong : 16 ≤ c.rawId.length)
    -- the credential id is new, and the name
    (hnew : ∀ pre e name k, Occurs evs pre e → ¬ RegistersBy (fixedReply app) app pre e c.rawId name k)
    (hfirst : ∀ pre e id k, Occurs evs pre e → ¬ RegistersBy (fixedReply app) app pre e id name k) :
    fixedReply app evs (.registrationResponse f now) = success := by
  obtain ⟨hadm, u, db', rfl, hread, hreg⟩ := honest_registration
    above_ascending (fun _ => (C96_repaired (env := app.env) (p := appPolicy) rfl).toContractBy) (fun _ h => h) ho hi ht hunused hf
    hresp hob hacd hk hkey hlong hnew hfirst
  have hclient : ClientAccepted app.env cdj "webauthn.create" ch (.one origin) none :=
    clientAccepted_of law (clientOk_of json hcdj hch
      (originAllowed_of (expected_app _) (List.mem_singleton.mpr rfl)) .none)
  have hauth : AuthOk app.env raw o.authData "localhost" false none := by
    obtain ⟨_, _, _, -, -, h, -⟩ := id hob
    exact ⟨h, hrp, hup, (by simp), fun l hl => (by cases hl)⟩
  have hh : Whole.handleAttestation app.env appPolicy (registrar app.env)
      (attestationArgs c ⟨n, ch, t, u.id⟩ u)
      (packageRun (fun _ => repairedPackage app.env appPolicy) app (appGuards app) evs).2 = (.ok (), db') :=
    C89_registration_exact.mpr ⟨o, ty, path, ⟨expected_app _, ⟨cdj, ob, raw, hresp, hclient, hob, hall, hauth, hshows⟩,
      hout, ⟨acd, hacd, hid.symm⟩, ⟨acd, k, hacd, hk, ⟨.ES256, List.mem_singleton_self _, halg⟩, hprofile⟩, hu2f⟩,
      hreg _ _⟩
  rw [fixedReply, reply_admitted hadm, packageStep_registration hread hh]
  rfl

/-- C96: the repaired application accepts an honest login, in response to an unused challenge,
issued to the user at most 60000 ms before, with a counter above those before it. -/
theorem C96_login (codec : CodecLaws app.env) (json : JsonLaw app.env) (law : JsonRefusesMark app.env)
    {pre pre' : List Event} {e e' : Event} {f : Form} {now t : Int} {n : Nat} {ch : Bytes}
    {name chText : String} {c : Credential} {cdj raw sig : Bytes} {handle : Option Bytes}
    {ad : AuthData} {k : CPK}
    -- the challenge and the registration
    (ho : Occurs evs pre e) (hi : IssuesBy (fixedReply app) pre e n ch t name) (ht : now - t ≤ 60000)
    (hunused : ∀ pre e t c name, Occurs evs pre e → ¬ SucceedsBy (fixedReply app) app pre e t n c name)
    (ho' : Occurs evs pre' e') (hr : RegistersBy (fixedReply app) app pre' e' c.rawId name k)
    -- the form and the response of the browser
    (hf : Submits app f n c name) (hresp : c.response = .assertion cdj raw sig handle)
    (hcdj : ClientDataText "webauthn.get" chText "http://localhost:5000" none cdj)
    (hch : Base64UrlText chText ch)
    (hhandle : ∀ h, handle = some h →
      ∃ u ∈ (packageRun (fun _ => repairedPackage app.env appPolicy) app (appGuards app) evs).2.users,
        u.username = name ∧ u.handle = h)
    -- the authenticator data and its signature
    (had : AuthDataOf app.env raw ad) (hrp : RpHashOk app.env raw "localhost") (hup : FlagSet raw 0)
    (hout : OutputsOk ad) (happ : ¬ AppIdUsed ad) (hsig : SignedBy app.env k sig (raw ++ app.env.sha256 cdj))
    (hcount : ∀ pre e m, Occurs evs pre e →
      AuthenticatesBy (fixedReply app) app pre e c.rawId m → m < ad.signCount)
    (hinitial : ∀ pre e m, Occurs evs pre e →
      BeginsBy (fixedReply app) app pre e c.rawId m → m ≠ 0 → m < ad.signCount) :
    fixedReply app evs (.authenticationResponse f now) = success := by
  have hprofile := (C96_fixed codec json law fun _ h => h).profile _ _ _ _ _ hr
  exact C97_login above_ascending (fun _ => (C96_repaired (env := app.env) (p := appPolicy) rfl).toContractBy) codec (fun _ h => h)
    (C97_repaired_serves json law) ho hi ht (fun _ => hunused) ho' hr hprofile hf hresp hcdj hch hhandle had hrp hup hout happ
    hsig (fun pre e m h1 h2 => Int.ofNat_lt.mpr (hcount pre e m h1 h2)) hinitial

/-- C96: requests of challenges are answered as by the application. -/
theorem C96_requests {e : Event} (he : formIn e = none) : fixedReply app evs e =
    (step app e (packageRun (fun _ => repairedPackage app.env appPolicy) app (appGuards app) evs).2).1 :=
  C97_requests (fun _ h => h) he

end

end WebAuthn.Flask
