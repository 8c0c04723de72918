import Verif.Spec.Phishing
import Verif.Props.FlaskHonest
import Verif.Props.FlaskThreads
import Verif.Lemmas.OutcomeParse

/-!
# Logins were approved by the holder of the key (C65, C67)
-/

namespace WebAuthn.Flask

open WebAuthn WebAuthn.Spec WebAuthn.Props

/-- From the bytes that were submitted to the approval. -/
theorem approved_of {env : Env} (json : JsonLaw env) {k : CPK} {sent : Bytes → Bytes → Bytes → Prop}
    {acts : Approval → Prop} (holder : Holder env k sent acts) {cdj raw sig ch : Bytes} {d : Dict}
    {origin text : String} (hsent : sent cdj raw sig)
    (hsig : SignedBy env k sig (raw ++ env.sha256 cdj)) (hd : ClientJson env cdj d)
    (htype : Lookup d (.str "type") (.str "webauthn.get"))
    (horigin : Lookup d (.str "origin") (.str origin))
    (hpage : OriginOf env origin ⟨"http", "localhost:5000", 5000⟩)
    (hchallenge : Lookup d (.str "challenge") (.str text)) (hch : Base64UrlText text ch)
    (hrp : RpHashOk env raw "localhost") (hup : FlagSet raw 0)
    {c : Credential} {handle : Option Bytes} (hresp : c.response = .assertion cdj raw sig handle) :
    ∃ a, acts a ∧ Approves env a c ch := by
  obtain ⟨a, ha, he⟩ := holder.unforged cdj raw sig hsent hsig
  have hlen : raw.length = a.raw.length := by
    have := congrArg List.length he
    simp only [List.length_append, holder.digest] at this
    omega
  obtain ⟨e1, e2⟩ := List.append_inj he hlen
  have e3 := holder.noCollision cdj raw sig a hsent ha e2
  subst e3
  obtain ⟨text', hb, t, d', hu, hj, l1, l2, l3, -⟩ := holder.browser a ha
  obtain ⟨t', hu', hj'⟩ := hd
  obtain rfl := utf8_unique hu hu'
  rw [json _ _ hj, Except.ok.injEq, PyVal.dict.injEq] at hj'
  subst hj'
  have o := lookup_unique l3 horigin
  rw [PyVal.str.injEq] at o
  have ty := lookup_unique l1 htype
  rw [PyVal.str.injEq] at ty
  have c := lookup_unique l2 hchallenge
  rw [PyVal.str.injEq] at c
  subst c
  rw [← urlBase64Decode_ok_iff] at hb hch
  rw [hb, Except.ok.injEq] at hch
  exact ⟨a, ha, ⟨o ▸ hpage, ty, hch, e1 ▸ hrp, e1 ▸ hup, sig, handle, e1 ▸ hresp⟩⟩

/-- What was submitted in a successful login with a registered credential. -/
theorem login_facts {app : App} (codec : CodecLaws app.env) {evs pre : List Event} {e : Event}
    {f : Form} {now : Int} {n : Nat} {c : Credential} {name name' : String} {k : CPK}
    (h : reply app evs (.authenticationResponse f now) = success) (hf : Submits app f n c name)
    (ho : Occurs evs pre e) (hr : Registers app pre e c.rawId name' k) :
    name' = name ∧ ∃ cdj raw sig handle d origin text ch, c.response = .assertion cdj raw sig handle ∧
      SignedBy app.env k sig (raw ++ app.env.sha256 cdj) ∧ ClientJson app.env cdj d ∧
      Lookup d (.str "type") (.str "webauthn.get") ∧ Lookup d (.str "origin") (.str origin) ∧
      OriginOf app.env origin ⟨"http", "localhost:5000", 5000⟩ ∧
      Lookup d (.str "challenge") (.str text) ∧ Base64UrlText text ch ∧
      RpHashOk app.env raw "localhost" ∧ FlagSet raw 0 ∧
      ∃ pre' e' t' name'', Occurs evs pre' e' ∧ Issues app pre' e' n ch t' name'' ∧
        now - t' ≤ 60000 := by
  obtain ⟨_, _, _, ch, u, row, key, user, r, ad, h1, h2, h3, h4, h5, h6, h7, h8, h9, hok, -⟩ :=
    authentication_success h
  obtain ⟨rfl, rfl, rfl⟩ := submits_unique hf h1
  obtain ⟨cdj, raw, sig, handle, g1, -, g2, ⟨cd, ⟨d, g3, g4, g5, g6, -⟩, g7, g8, g9, -⟩,
    ⟨-, g10, g11, -⟩, g12, -⟩ := hok
  have e1 : r = rp := by
    cases g2
    rfl
  subst e1
  have g1 : c.response = _ := g1
  obtain ⟨hr1, hr2⟩ := credential_some h7
  have inv := inv_run app evs
  obtain ⟨v, row', v1, v2, r1, r2, r3, r4⟩ := registered_row ho hr
  obtain rfl : row = row' := pairwise_unique inv.credentialIds hr1 r1 (hr2.trans r2.symm)
  have hv : v = u := inv.userId_unique v1 h5 (r3.symm.trans h8)
  have hd : ∃ d, CoseKeyOf d k := by
    obtain ⟨_, _, _, _, _, _, _, _, _, -, -, -, -, -, e1, e2, e3⟩ := hr
    exact attested_key_dict e1 e2 e3
  have := C27_stored_key codec (hd.imp fun _ => parseCoseKeyDict_ok_iff.mpr) r4
  rw [h9] at this
  cases this
  obtain ⟨pre', e', u', p1, -, -, p2⟩ := inv.challenges ch h2
  exact ⟨by rw [← v2, hv, h6], cdj, raw, sig, handle, d, _, _, ch.request, g1,
    signedBy_asStored.mp g12, g3, g7 ▸ g4, g6, allowed_app g9, g5, g8, g10, g11, pre', e',
    ch.timestamp, u'.username, p1, h3 ▸ p2, h4⟩

/-- C65: a successful login with a credential that was registered with the key `k` is for
the user it was registered for, and the holder of the key approved it on the page of the
application, with a challenge that the application issued at most 60000 ms before. -/
theorem C65_login {app : App} (codec : CodecLaws app.env) (json : JsonLaw app.env)
    {evs pre : List Event} {e : Event} {f : Form} {now : Int} {n : Nat} {c : Credential}
    {name name' : String} {k : CPK} {acts : Approval → Prop}
    (holder : Holder app.env k (Sent app (evs ++ [.authenticationResponse f now])) acts)
    (ho : Occurs evs pre e) (hr : Registers app pre e c.rawId name' k)
    (h : reply app evs (.authenticationResponse f now) = success) (hf : Submits app f n c name) :
    name' = name ∧ ∃ a pre' e' ch t' name'', acts a ∧ Approves app.env a c ch ∧
      Occurs evs pre' e' ∧ Issues app pre' e' n ch t' name'' ∧ now - t' ≤ 60000 := by
  obtain ⟨h1, cdj, raw, sig, handle, d, origin, text, ch, g1, g2, g3, g4, g5, g6, g7, g8, g9, g10,
    pre', e', t', name'', g12, g13, g14⟩ := login_facts codec h hf ho hr
  obtain ⟨a, ha, hap⟩ := approved_of json holder
    ⟨f, now, n, c, name, handle, by simp, hf, g1⟩ g2 g3 g4 g5 g6 g7 g8 g9 g10 g1
  exact ⟨h1, a, pre', e', ch, t', name'', ha, hap, g12, g13, g14⟩

/-- C65: phishing is of no use.  If the holder of the key approved only on pages of
other origins, no login with the credential succeeds. -/
theorem C65_phishing {app : App} (codec : CodecLaws app.env) (json : JsonLaw app.env)
    {evs pre : List Event} {e : Event} {f : Form} {now : Int} {n : Nat} {c : Credential}
    {name name' : String} {k : CPK} {acts : Approval → Prop}
    (holder : Holder app.env k (Sent app (evs ++ [.authenticationResponse f now])) acts)
    (ho : Occurs evs pre e) (hr : Registers app pre e c.rawId name' k) (hf : Submits app f n c name)
    (hother : ∀ a, acts a → ¬ OriginOf app.env a.origin ⟨"http", "localhost:5000", 5000⟩) :
    reply app evs (.authenticationResponse f now) ≠ success := by
  intro h
  obtain ⟨-, a, _, _, _, _, _, ha, hap, -⟩ := C65_login codec json holder ho hr h hf
  exact hother a ha hap.page

/-! ## A credential is registered once -/

theorem registers_unique {app : App} {pre : List Event} {e : Event} {id id' : Bytes}
    {name name' : String} {k k' : CPK} (h : Registers app pre e id name k)
    (h' : Registers app pre e id' name' k') : id = id' ∧ name = name' ∧ k = k' := by
  obtain ⟨f, t, n, c, cdj, ob, o, raw, acd, rfl, -, h1, h2, h3, h4, h5, h6⟩ := h
  obtain ⟨f', t', n', c', cdj', ob', o', raw', acd', he, -, g1, g2, g3, g4, g5, g6⟩ := h'
  cases he
  obtain ⟨rfl, rfl, rfl⟩ := submits_unique h1 g1
  rw [h3] at g3
  cases g3
  rw [← parseAttestationObject_ok_iff] at h4 g4
  rw [h4] at g4
  cases g4
  rw [h5] at g5
  cases g5
  rw [h6] at g6
  exact ⟨h2.symm.trans g2, rfl, Option.some.inj g6⟩

theorem not_registers_after {app : App} {pre mid : List Event} {e e' : Event} {id : Bytes}
    {name name' : String} {k k' : CPK} (h : Registers app pre e id name k) :
    ¬ Registers app (pre ++ e :: mid) e' id name' k' := by
  rintro ⟨f, t, n, c, cdj, ob, o, raw, acd, rfl, h0, h1, h2, h3, h4, h5, h6⟩
  obtain ⟨_, _, _, ch, u, o', raw', acd', k'', key, h1', -, -, -, -, -, -, -, -, -, h2', -⟩ :=
    registration_success h0
  obtain ⟨rfl, rfl, rfl⟩ := submits_unique h1 h1'
  obtain ⟨_, row, -, -, r1, r2, -⟩ := registered_row ⟨mid, rfl⟩ h
  exact h2' row r1 (r2.trans h2.symm)

/-- C49: a credential id is registered once in a history, for one user and with one
key. -/
theorem C49_registered_once {app : App} {evs pre pre' : List Event} {e e' : Event} {id : Bytes}
    {name name' : String} {k k' : CPK} (ho : Occurs evs pre e) (h : Registers app pre e id name k)
    (ho' : Occurs evs pre' e') (h' : Registers app pre' e' id name' k') :
    pre = pre' ∧ e = e' ∧ name = name' ∧ k = k' := by
  obtain ⟨post, rfl⟩ := ho
  obtain ⟨post', he⟩ := ho'
  rcases List.append_eq_append_iff.mp he with ⟨l, rfl, h2⟩ | ⟨l, rfl, h2⟩
  · cases l with
    | nil =>
      simp only [List.nil_append, List.cons.injEq] at h2
      obtain ⟨rfl, -⟩ := h2
      rw [List.append_nil] at h'
      obtain ⟨-, rfl, rfl⟩ := registers_unique h h'
      simp
    | cons a l =>
      simp only [List.cons_append, List.cons.injEq] at h2
      obtain ⟨rfl, -⟩ := h2
      exact absurd h' (not_registers_after h)
  · cases l with
    | nil =>
      simp only [List.nil_append, List.cons.injEq] at h2
      obtain ⟨rfl, -⟩ := h2
      rw [List.append_nil] at h
      obtain ⟨-, rfl, rfl⟩ := registers_unique h h'
      simp
    | cons a l =>
      simp only [List.cons_append, List.cons.injEq] at h2
      obtain ⟨rfl, -⟩ := h2
      exact absurd h (not_registers_after h')

/-! ## One approval, one login -/

theorem take_split {α : Type} {l : List α} {i : Nat} {a : α} (h : l[i]? = some a) :
    l = l.take i ++ a :: l.drop (i + 1) := by
  obtain ⟨hi, rfl⟩ := List.getElem?_eq_some_iff.mp h
  rw [List.getElem_cons_drop, List.take_append_drop]

theorem take_split_lt {α : Type} {l : List α} {i j : Nat} {a : α} (h : l[i]? = some a) (hij : i < j) :
    ∃ mid, l.take j = l.take i ++ a :: mid := by
  refine ⟨(l.take j).drop (i + 1), ?_⟩
  have h1 : (l.take j)[i]? = some a := by rw [List.getElem?_take, if_pos hij, h]
  have h2 := take_split h1
  rwa [List.take_take, Nat.min_eq_left (Nat.le_of_lt hij)] at h2

/-- The registration came before the login. -/
theorem login_registered {app : App} (codec : CodecLaws app.env) {evs pre : List Event} {e : Event}
    {c : Credential} {name : String} {k : CPK} (ho : Occurs evs pre e)
    (hr : Registers app pre e c.rawId name k) {i : Nat} (hl : LoginAt app evs c i) :
    Occurs (evs.take i) pre e := by
  obtain ⟨f, t, n, name', h1, h2, h3⟩ := hl
  obtain ⟨_, _, _, pre', e', k', _, _, _, _, g1, g2, g3, -⟩ := C49_login codec h2
  obtain ⟨rfl, rfl, rfl⟩ := submits_unique h3 g1
  have g4 : Occurs evs pre' e' := by
    obtain ⟨post, hp⟩ := g2
    refine ⟨post ++ evs.drop i, ?_⟩
    calc evs = evs.take i ++ evs.drop i := (List.take_append_drop i evs).symm
      _ = _ := by rw [hp]; simp
  obtain ⟨rfl, rfl, -, -⟩ := C49_registered_once ho hr g4 g3
  exact g2

theorem loginAt_unique {app : App} {evs : List Event} {c c' : Credential} {i : Nat}
    (h : LoginAt app evs c i) (h' : LoginAt app evs c' i) : c = c' := by
  obtain ⟨f, t, n, name, h1, -, h2⟩ := h
  obtain ⟨f', t', n', name', g1, -, g2⟩ := h'
  rw [h1] at g1
  cases g1
  exact (submits_unique h2 g2).2.1

/-- C67, for requests one after another: one approval is good for one login.  Missing:
requests that overlap (`C67_overlapping_refuted`). -/
theorem C67_one_login_partial {app : App} (codec : CodecLaws app.env) (json : JsonLaw app.env)
    {evs pre : List Event} {e : Event} {id : Bytes} {name : String} {k : CPK} {acts : Approval → Prop}
    (holder : Holder app.env k (Sent app evs) acts)
    (ho : Occurs evs pre e) (hr : Registers app pre e id name k) :
    OneEach app.env acts (LoginAt app evs) id := by
  classical
  have key : ∀ i, (∃ c, LoginAt app evs c i ∧ c.rawId = id) → ∃ a, acts a ∧
      ∃ c ch, LoginAt app evs c i ∧ c.rawId = id ∧ Approves app.env a c ch := by
    rintro i ⟨c, hi, rfl⟩
    have ho' := login_registered codec ho hr hi
    have hi' := hi
    obtain ⟨f, t, n, name', h1, h2, h3⟩ := hi
    have holder' : Holder app.env k (Sent app (evs.take i ++ [.authenticationResponse f t])) acts := by
      have sub : ∀ cdj raw sig, Sent app (evs.take i ++ [.authenticationResponse f t]) cdj raw sig →
          Sent app evs cdj raw sig := by
        rintro cdj raw sig ⟨f', t', n', c', name'', handle, hm, hs⟩
        refine ⟨f', t', n', c', name'', handle, ?_, hs⟩
        rw [take_split h1]
        simp only [List.mem_append, List.mem_cons, List.not_mem_nil, or_false] at hm ⊢
        tauto
      exact ⟨holder.browser, fun cdj raw sig hs => holder.unforged cdj raw sig (sub _ _ _ hs),
        fun cdj raw sig a hs => holder.noCollision cdj raw sig a (sub _ _ _ hs), holder.digest⟩
    obtain ⟨-, a, _, _, ch, _, _, ha, hap, -⟩ := C65_login codec json holder' ho' hr h2 h3
    exact ⟨a, ha, c, ch, hi', rfl, hap⟩
  have lt : ∀ i j hi hj, i < j → (key i hi).choose ≠ (key j hj).choose := by
    intro i j hi hj hij he
    obtain ⟨-, c, ch, ⟨f, t, n, name1, a1, a2, a3⟩, a4, a5⟩ := (key i hi).choose_spec
    obtain ⟨-, c', ch', ⟨f', t', n', name2, b1, b2, b3⟩, b4, b5⟩ := (key j hj).choose_spec
    obtain ⟨mid, hmid⟩ := take_split_lt a1 hij
    rw [hmid] at b2
    obtain ⟨x, y, ⟨_, _, _, _, x1, x2⟩, ⟨_, _, _, _, y1, y2⟩, hxy⟩ :=
      C47_flask_counters a2 a3 b2 b3 (a4.trans b4.symm)
    obtain ⟨_, _, a6⟩ := a5.response
    obtain ⟨_, _, b6⟩ := b5.response
    rw [x1] at a6
    rw [y1, ← he] at b6
    cases a6
    cases b6
    rw [bigEndian_iff] at x2 y2
    omega
  refine ⟨fun i => if hi : ∃ c, LoginAt app evs c i ∧ c.rawId = id then some (key i hi).choose else none,
    ?_, ?_⟩
  · intro i c hi hid
    have hi' : ∃ c, LoginAt app evs c i ∧ c.rawId = id := ⟨c, hi, hid⟩
    obtain ⟨h1, c', ch, h2, -, h3⟩ := (key i hi').choose_spec
    obtain rfl := loginAt_unique hi h2
    exact ⟨_, ch, dif_pos hi', h1, h3⟩
  · intro i j c c' hi hid hj hid' he
    have hi' : ∃ c, LoginAt app evs c i ∧ c.rawId = id := ⟨c, hi, hid⟩
    have hj' : ∃ c, LoginAt app evs c j ∧ c.rawId = id := ⟨c', hj, hid'⟩
    simp only [dif_pos hi', dif_pos hj', Option.some.injEq] at he
    rcases Nat.lt_trichotomy i j with h | h | h
    · exact absurd he (lt i j hi' hj' h)
    · exact h
    · exact absurd he.symm (lt j i hj' hi' h)

/-! ## Requests in progress at the same time -/

section
variable {ι : Type} [DecidableEq ι] {app : App} {reqs : ι → Event} {sched : List ι}

theorem registeredAt_unique {pre pre' : List ι} {j : ι} {id id' : Bytes} {name name' : String}
    {k k' : CPK} (h : RegisteredAt app reqs pre j id name k)
    (h' : RegisteredAt app reqs pre' j id' name' k') : id = id' ∧ name = name' ∧ k = k' := by
  obtain ⟨f, t, n, c, cdj, ob, o, raw, acd, h0, -, h1, h2, h3, h4, h5, h6⟩ := h
  obtain ⟨f', t', n', c', cdj', ob', o', raw', acd', g0, -, g1, g2, g3, g4, g5, g6⟩ := h'
  rw [h0] at g0
  cases g0
  obtain ⟨rfl, rfl, rfl⟩ := submits_unique h1 g1
  rw [h3] at g3
  cases g3
  rw [← parseAttestationObject_ok_iff] at h4 g4
  rw [h4] at g4
  cases g4
  rw [h5] at g5
  cases g5
  rw [h6] at g6
  exact ⟨h2.symm.trans g2, rfl, Option.some.inj g6⟩

/-- C65: `C65_login` holds whatever the order of the statements of the requests. -/
theorem C65_overlapping (codec : CodecLaws app.env) (json : JsonLaw app.env)
    {i j : ι} {f : Form} {now : Int} {n : Nat} {c : Credential} {name name' : String} {k : CPK}
    {acts : Approval → Prop} (holder : Holder app.env k (SentIn app reqs) acts)
    (hj : RegisteredAt app reqs sched j c.rawId name' k)
    (hi : reqs i = .authenticationResponse f now) (h : answer app reqs sched i = some success)
    (hf : Submits app f n c name) :
    name' = name ∧ ∃ a pre j' ch t name'', acts a ∧ Approves app.env a c ch ∧
      Before app reqs sched i pre ∧ IssuedAt app reqs pre j' n ch t name'' ∧ now - t ≤ 60000 := by
  obtain ⟨_, _, _, pre1, j1, k1, cdj, raw, sig, handle, a1, a2, a3, a4, a5⟩ := C63_login codec hi h
  obtain ⟨rfl, rfl, rfl⟩ := submits_unique hf a1
  have a6 := registeredAt_mono a2.1 a3
  obtain rfl := C63_registered_once hj a6
  obtain ⟨-, rfl, rfl⟩ := registeredAt_unique hj a6
  obtain ⟨pre, j', ch, t, name'', cdj', d, text, b1, b2, b3, b4, b5, b6, b7⟩ :=
    C63_fresh_challenge (Or.inr hi) hf h
  have b4 : cdj = cdj' := by
    rcases b4 with ⟨_, b4⟩ | ⟨_, _, _, b4⟩ <;> rw [a4] at b4 <;> cases b4
    rfl
  subst b4
  obtain ⟨_, _, _, cdj', raw', sig', handle', d', origin, c1, c2, c3, c4, c5, c6, c7, c8⟩ :=
    C63_authentication_scope hi h
  obtain ⟨rfl, rfl, rfl⟩ := submits_unique hf c1
  rw [a4] at c2
  cases c2
  obtain ⟨s1, s2, s3⟩ := b5
  obtain ⟨s1', s2', s3'⟩ := c3
  obtain rfl := utf8_unique s2 s2'
  rw [s3, Except.ok.injEq, PyVal.dict.injEq] at s3'
  subst s3'
  obtain ⟨a, ha, hap⟩ := approved_of json holder ⟨i, f, now, n, c, name', handle, hi, hf, a4⟩ a5
    ⟨s1, s2, s3⟩ c4 c5 c6 b6 b7 c7 c8 a4
  exact ⟨rfl, a, pre, j', ch, t, name'', ha, hap, b1, b2, b3⟩

/-- C65: phishing is of no use when requests overlap. -/
theorem C65_overlapping_phishing (codec : CodecLaws app.env) (json : JsonLaw app.env)
    {i j : ι} {f : Form} {now : Int} {n : Nat} {c : Credential} {name name' : String} {k : CPK}
    {acts : Approval → Prop} (holder : Holder app.env k (SentIn app reqs) acts)
    (hj : RegisteredAt app reqs sched j c.rawId name' k)
    (hi : reqs i = .authenticationResponse f now) (hf : Submits app f n c name)
    (hother : ∀ a, acts a → ¬ OriginOf app.env a.origin ⟨"http", "localhost:5000", 5000⟩) :
    answer app reqs sched i ≠ some success := by
  intro h
  obtain ⟨-, a, _, _, _, _, _, ha, hap, -⟩ := C65_overlapping codec json holder hj hi h hf
  exact hother a ha hap.page

end

end WebAuthn.Flask
