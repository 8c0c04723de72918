import Verif.Props.Phishing
import Verif.Props.FlaskRepaired
import Verif.Model.FlaskOwned

/-!
# Who may log in under a name (C66)
-/

namespace WebAuthn.Flask

open WebAuthn WebAuthn.Spec WebAuthn.Props

theorem registersBy_reply {app : App} {pre : List Event} {e : Event} {id : Bytes} {name : String}
    {k : CPK} : RegistersBy (reply app) app pre e id name k ↔ Registers app pre e id name k := Iff.rfl

/-- C66, the part that holds of the application: if all the credentials that were
registered under the name have the key of the owner, a login under the name succeeds
only if the holder of the key approved it.  Missing: anybody can register another
credential under the name (`C66_owner_only_refuted`). -/
theorem C66_owner_only_partial {app : App} (codec : CodecLaws app.env) (json : JsonLaw app.env)
    {evs : List Event} {f : Form} {now : Int} {n : Nat} {c : Credential} {name : String} {k : CPK}
    {acts : Approval → Prop}
    (holder : Holder app.env k (Sent app (evs ++ [.authenticationResponse f now])) acts)
    (hall : ∀ pre e id k', Occurs evs pre e → Registers app pre e id name k' → k' = k)
    (h : reply app evs (.authenticationResponse f now) = success) (hf : Submits app f n c name) :
    ∃ a ch, acts a ∧ Approves app.env a c ch := by
  obtain ⟨_, _, _, pre, e, k', _, _, _, _, g1, g2, g3, -⟩ := C49_login codec h
  obtain ⟨rfl, rfl, rfl⟩ := submits_unique hf g1
  obtain rfl := hall pre e _ _ g2 g3
  obtain ⟨-, a, _, _, ch, _, _, ha, hap, -⟩ := C65_login codec json holder g2 g3 h hf
  exact ⟨a, ch, ha, hap⟩

/-! ## The repaired application -/

/-- The events that the repaired application does not refuse. -/
def kept (app : App) (evs : List Event) : List Event :=
  evs.foldl (fun l e => if taken app e (run app l) then l else l ++ [e]) []

theorem kept_snoc (app : App) (evs : List Event) (e : Event) :
    kept app (evs ++ [e]) =
      if taken app e (run app (kept app evs)) then kept app evs else kept app evs ++ [e] := by
  rw [kept, List.foldl_append, ← kept]
  rfl

theorem occurs_snoc_cases {evs pre : List Event} {e a : Event} (h : Occurs (evs ++ [a]) pre e) :
    Occurs evs pre e ∨ evs = pre ∧ a = e := by
  obtain ⟨post, h⟩ := h
  rcases List.eq_nil_or_concat post with rfl | ⟨l, b, rfl⟩
  · obtain ⟨h1, h2⟩ := List.append_inj' h rfl
    exact Or.inr ⟨h1, by simpa using h2⟩
  · rw [List.concat_eq_append, ← List.cons_append, ← List.append_assoc] at h
    exact Or.inl ⟨l, (List.append_inj' h rfl).1⟩

theorem ownedRun_snoc (app : App) (evs : List Event) (e : Event) :
    ownedRun app (evs ++ [e]) = (ownedStep app e (ownedRun app evs)).2 := by
  simp [ownedRun, List.foldl_append]

theorem ownedRun_eq (app : App) (evs : List Event) : ownedRun app evs = run app (kept app evs) := by
  induction evs using List.reverseRecOn with
  | nil => rfl
  | append_singleton l e ih =>
    rw [ownedRun_snoc, kept_snoc, ownedStep, ih]
    split
    · rfl
    · rw [run_snoc]

theorem ownedReply_success {app : App} {evs : List Event} {e : Event} :
    ownedReply app evs e = success ↔
      taken app e (run app (kept app evs)) = false ∧ reply app (kept app evs) e = success := by
  rw [ownedReply, ownedRun_eq, ownedStep]
  cases taken app e (run app (kept app evs))
  · simp [reply]
  · simp [success]

theorem taken_login (app : App) (f : Form) (t : Int) (db : Db) :
    taken app (.authenticationResponse f t) db = false := rfl

theorem kept_append (app : App) (evs evs' : List Event) :
    ∃ more, kept app (evs ++ evs') = kept app evs ++ more ∧ ∀ e ∈ more, e ∈ evs' := by
  induction evs' using List.reverseRecOn with
  | nil => exact ⟨[], by simp, by simp⟩
  | append_singleton l e ih =>
    obtain ⟨more, h1, h2⟩ := ih
    rw [← List.append_assoc, kept_snoc]
    split
    · exact ⟨more, h1, fun x hx => List.mem_append_left _ (h2 x hx)⟩
    · refine ⟨more ++ [e], by rw [h1, List.append_assoc], fun x hx => ?_⟩
      rcases List.mem_append.mp hx with hx | hx
      · exact List.mem_append_left _ (h2 x hx)
      · exact List.mem_append_right _ hx

theorem kept_mem {app : App} {evs : List Event} {e : Event} (h : e ∈ kept app evs) : e ∈ evs := by
  obtain ⟨more, h1, h2⟩ := kept_append app [] evs
  rw [List.nil_append] at h1
  rw [h1, show kept app [] = [] from rfl, List.nil_append] at h
  exact h2 e h

/-- What happened in the kept history happened in the history. -/
theorem kept_occurs {app : App} {evs pre : List Event} {e : Event} (h : Occurs (kept app evs) pre e) :
    ∃ pre', Occurs evs pre' e ∧ kept app pre' = pre ∧ taken app e (run app pre) = false := by
  induction evs using List.reverseRecOn with
  | nil =>
    obtain ⟨post, h⟩ := h
    simp [kept] at h
  | append_singleton l a ih =>
    rw [kept_snoc] at h
    by_cases ht : taken app a (run app (kept app l)) = true
    · rw [if_pos ht] at h
      obtain ⟨pre', h1, h2⟩ := ih h
      exact ⟨pre', occurs_snoc h1, h2⟩
    · rw [if_neg ht] at h
      rcases occurs_snoc_cases h with h | ⟨rfl, rfl⟩
      · obtain ⟨pre', h1, h2⟩ := ih h
        exact ⟨pre', occurs_snoc h1, h2⟩
      · exact ⟨l, ⟨[], rfl⟩, rfl, by simpa using ht⟩

theorem occurs_kept {app : App} {evs pre : List Event} {e : Event} (h : Occurs evs pre e)
    (ht : taken app e (run app (kept app pre)) = false) : Occurs (kept app evs) (kept app pre) e := by
  obtain ⟨post, rfl⟩ := h
  obtain ⟨more, h1, -⟩ := kept_append app (pre ++ [e]) post
  rw [List.append_assoc, List.singleton_append] at h1
  rw [h1, kept_snoc, if_neg (by simp [ht])]
  exact ⟨more, by simp⟩

theorem registersBy_owned {app : App} {pre : List Event} {e : Event} {id : Bytes} {name : String}
    {k : CPK} : RegistersBy (ownedReply app) app pre e id name k ↔
      taken app e (run app (kept app pre)) = false ∧ Registers app (kept app pre) e id name k := by
  constructor
  · rintro ⟨f, t, n, c, cdj, ob, o, raw, acd, h1, h2, h3⟩
    obtain ⟨h2, h4⟩ := ownedReply_success.mp h2
    exact ⟨h2, f, t, n, c, cdj, ob, o, raw, acd, h1, h4, h3⟩
  · rintro ⟨h0, f, t, n, c, cdj, ob, o, raw, acd, h1, h2, h3⟩
    exact ⟨f, t, n, c, cdj, ob, o, raw, acd, h1, ownedReply_success.mpr ⟨h0, h2⟩, h3⟩

/-- A registration that is not refused is the first under its name. -/
theorem taken_registered {app : App} {evs pre : List Event} {e e' : Event} {id id' : Bytes}
    {name : String} {k k' : CPK} (ho : Occurs evs pre e) (hr : Registers app pre e id name k)
    (hr' : Registers app evs e' id' name k') : taken app e' (run app evs) = true := by
  obtain ⟨u, row, h1, h2, h3, -, h4, -⟩ := registered_row ho hr
  obtain ⟨f, t, n, c, cdj, ob, o, raw, acd, rfl, g1, g2, -⟩ := hr'
  obtain ⟨c', ch, u', hread, hu, hname⟩ : ∃ c' ch u', readResponse app true f t (run app evs) =
      .ok (c', ch, u') ∧ u' ∈ (run app evs).users ∧ u'.username = name := by
    cases hread : readResponse app true f t (run app evs) with
    | error r =>
      have g1 : (registrationResponse app f t (run app evs)).1 = success := g1
      simp only [registrationResponse, hread] at g1
      exact absurd g1 (readResponse_error hread)
    | ok x =>
      obtain ⟨c', ch, u'⟩ := x
      obtain ⟨n', name', e1, -, -, e2, -⟩ := readResponse_ok_iff.mp hread
      obtain ⟨-, -, rfl⟩ := submits_unique g2 e1
      obtain ⟨e3, e4⟩ := userNamed_some e2
      exact ⟨c', ch, u', rfl, e3, e4⟩
  have : u' = u := pairwise_unique (inv_run app evs).names hu h1 (hname.trans h2.symm)
  subst this
  simp only [taken, hread, List.any_eq_true, beq_iff_eq]
  exact ⟨row, h3, h4⟩

/-- C66: the repaired application lets nobody but the owner log in under a name. -/
theorem C66_repaired (app : App) (codec : CodecLaws app.env) (json : JsonLaw app.env) :
    OwnerOnly (ownedReply app) app := by
  intro evs pre e id name k acts f now n c ho hr _ holder h hf
  obtain ⟨-, h⟩ := ownedReply_success.mp h
  obtain ⟨ht, hr⟩ := registersBy_owned.mp hr
  have ho := occurs_kept ho ht
  refine C66_owner_only_partial codec json (k := k) ?_ ?_ h hf
  · have sub : ∀ cdj raw sig, Sent app (kept app evs ++ [.authenticationResponse f now]) cdj raw sig →
        Sent app (evs ++ [.authenticationResponse f now]) cdj raw sig := by
      rintro cdj raw sig ⟨f', t', n', c', name', handle, hm, hs⟩
      refine ⟨f', t', n', c', name', handle, ?_, hs⟩
      rcases List.mem_append.mp hm with hm | hm
      · exact List.mem_append_left _ (kept_mem hm)
      · exact List.mem_append_right _ hm
    exact ⟨holder.browser, fun cdj raw sig hs => holder.unforged cdj raw sig (sub _ _ _ hs),
      fun cdj raw sig a hs => holder.noCollision cdj raw sig a (sub _ _ _ hs), holder.digest⟩
  · intro pre' e' id' k' ho' hr'
    -- of two registrations under the name, the later is refused
    have key : ∀ {p q : List Event} {x y : Event} {i j : Bytes} {l m : CPK}, Occurs (kept app evs) p x →
        Occurs (kept app evs) q y → Registers app p x i name l → Registers app q y j name m →
        ¬ p.length < q.length := by
      intro p q x y i j l m hp hq hx hy hlt
      obtain ⟨q', -, rfl, hq2⟩ := kept_occurs hq
      obtain ⟨s, hs⟩ := hp
      obtain ⟨s', hs'⟩ := hq
      rw [hs] at hs'
      have : Occurs (kept app q') p x := by
        rcases List.append_eq_append_iff.mp hs' with ⟨r, h1, h2⟩ | ⟨r, h1, h2⟩
        · cases r with
          | nil =>
            rw [h1, List.append_nil] at hlt
            omega
          | cons a r =>
            simp only [List.cons_append, List.cons.injEq] at h2
            obtain ⟨rfl, -⟩ := h2
            exact ⟨r, h1⟩
        · rw [h1, List.length_append] at hlt
          omega
      rw [taken_registered this hx hy] at hq2
      cases hq2
    have hl : pre'.length = (kept app pre).length := by
      have h1 := key ho ho' hr hr'
      have h2 := key ho' ho hr' hr
      omega
    obtain ⟨s, hs⟩ := ho
    obtain ⟨s', hs'⟩ := ho'
    rw [hs] at hs'
    obtain ⟨h1, h2⟩ := List.append_inj hs' hl.symm
    rw [List.cons.injEq] at h2
    obtain ⟨rfl, -⟩ := h2
    rw [← h1] at hr'
    exact (registers_unique hr hr').2.2.symm

/-! ## It serves honest users -/

theorem issuesBy_owned {app : App} {pre : List Event} {e : Event} {n : Nat} {ch : Bytes} {t : Int}
    {name : String} (h : IssuesBy (ownedReply app) pre e n ch t name) :
    taken app e (run app (kept app pre)) = false ∧ Issues app (kept app pre) e n ch t name := by
  obtain ⟨⟨key, v, h1⟩, h2⟩ := h
  have ht : taken app e (run app (kept app pre)) = false := by
    rcases h2 with ⟨_, rfl⟩ | rfl <;> rfl
  rw [ownedReply, ownedRun_eq, ownedStep, ht] at h1
  exact ⟨ht, ⟨key, v, h1⟩, h2⟩

/-- C66: the repaired application accepts an honest registration (as in C56) under a name
under which none was registered. -/
theorem C66_repaired_registration {app : App} (codec : CodecLaws app.env) (json : JsonLaw app.env)
    {evs pre : List Event} {e : Event} {f : Form} {now t : Int} {n : Nat} {ch key : Bytes}
    {name chText : String} {c : Credential} {cdj ob raw : Bytes} {ad : AuthData}
    {acd : AttestedCredentialData} {k : CPK}
    -- the challenge
    (ho : Occurs evs pre e) (hi : IssuesBy (ownedReply app) pre e n ch t name) (ht : now - t ≤ 60000)
    -- the form and the response of the browser
    (hf : Submits app f n c name) (hresp : c.response = .attestation cdj ob)
    (hcdj : ClientDataText "webauthn.create" chText "http://localhost:5000" none cdj)
    (hch : Base64UrlText chText ch) (hob : EncodedNoneAttestation app.env raw ob)
    -- the authenticator data
    (had : EncodedAuthData app.env ad raw) (hacd : ad.attested = some acd)
    (hk : acd.credentialPublicKey = some k) (hkey : coseKey app.env k = .ok key)
    (hrp : RpHashOk app.env raw "localhost") (hup : FlagSet raw 0)
    -- the credential id is new, and the name
    (hnew : ∀ pre e name k, Occurs evs pre e → ¬ RegistersBy (ownedReply app) app pre e c.rawId name k)
    (hfirst : ∀ pre e id k, Occurs evs pre e → ¬ RegistersBy (ownedReply app) app pre e id name k) :
    ownedReply app evs (.registrationResponse f now) = success := by
  obtain ⟨h1, h2⟩ := issuesBy_owned hi
  refine ownedReply_success.mpr ⟨?_, C56_registration codec json (occurs_kept ho h1) h2 ht hf hresp hcdj
    hch hob had hacd hk hkey hrp hup fun pre e name' k h h' => ?_⟩
  · simp only [taken]
    cases hread : readResponse app true f now (run app (kept app evs)) with
    | error r => rfl
    | ok x =>
      obtain ⟨c', ch', u⟩ := x
      obtain ⟨n', name', e1, -, -, e2, -⟩ := readResponse_ok_iff.mp hread
      obtain ⟨-, -, rfl⟩ := submits_unique hf e1
      obtain ⟨e3, e4⟩ := userNamed_some e2
      simp only [List.any_eq_false, beq_iff_eq]
      intro row hrow hid
      have inv := inv_run app (kept app evs)
      obtain ⟨pre, e, v, k', h3, h4, h5, h6, -⟩ := inv.credentials row hrow
      obtain rfl : v = u := inv.userId_unique h4 e3 (h5.trans hid)
      obtain ⟨pre', h7, rfl, h8⟩ := kept_occurs h3
      exact hfirst pre' e _ k' h7 (registersBy_owned.mpr ⟨h8, e4 ▸ h6⟩)
  · obtain ⟨pre', h3, rfl, h4⟩ := kept_occurs h
    exact hnew pre' e name' k h3 (registersBy_owned.mpr ⟨h4, h'⟩)

/-- C66: the repaired application accepts an honest authentication (as in C56). -/
theorem C66_repaired_authentication {app : App} (codec : CodecLaws app.env) (json : JsonLaw app.env)
    {evs pre pre' : List Event} {e e' : Event} {f : Form} {now t : Int} {n : Nat} {ch : Bytes}
    {name chText : String} {c : Credential} {cdj raw sig : Bytes} {handle : Option Bytes}
    {ad : AuthData} {k : CPK}
    -- the challenge and the registration
    (ho : Occurs evs pre e) (hi : IssuesBy (ownedReply app) pre e n ch t name) (ht : now - t ≤ 60000)
    (ho' : Occurs evs pre' e') (hr : RegistersBy (ownedReply app) app pre' e' c.rawId name k)
    -- the form and the response of the browser
    (hf : Submits app f n c name) (hresp : c.response = .assertion cdj raw sig handle)
    (hcdj : ClientDataText "webauthn.get" chText "http://localhost:5000" none cdj)
    (hch : Base64UrlText chText ch)
    (hhandle : ∀ h, handle = some h →
      ∃ u ∈ (ownedRun app evs).users, u.username = name ∧ u.handle = h)
    -- the authenticator data and its signature
    (had : EncodedAuthData app.env ad raw) (hrp : RpHashOk app.env raw "localhost")
    (hup : FlagSet raw 0) (hsig : SignedBy app.env k sig (raw ++ app.env.sha256 cdj))
    (hcount : ∀ pre e m, Occurs evs pre e → AuthenticatesBy (ownedReply app) app pre e c.rawId m →
      m < ad.signCount) :
    ownedReply app evs (.authenticationResponse f now) = success := by
  obtain ⟨h1, h2⟩ := issuesBy_owned hi
  obtain ⟨h3, h4⟩ := registersBy_owned.mp hr
  rw [ownedRun_eq] at hhandle
  refine ownedReply_success.mpr ⟨rfl, C56_authentication codec json (occurs_kept ho h1) h2 ht
    (occurs_kept ho' h3) h4 hf hresp hcdj hch hhandle had hrp hup hsig fun pre e m h h' => ?_⟩
  obtain ⟨pre', h5, rfl, h6⟩ := kept_occurs h
  obtain ⟨f', t', n', c', name', m', rfl, e1, e2, e3, rfl, e4⟩ := h'
  exact_mod_cast hcount pre' _ m' h5
    ⟨f', t', n', c', name', rfl, ownedReply_success.mpr ⟨h6, e1⟩, e2, e3, e4⟩

end WebAuthn.Flask
