import Verif.Props.Phishing
import Verif.Props.FlaskOutcome

/-!
# Nobody locks the holder of a key out (C70)
-/

namespace WebAuthn.Flask

open WebAuthn WebAuthn.Spec WebAuthn.Props

theorem Holder.mono {env : Env} {k : CPK} {sent sent' : Bytes → Bytes → Bytes → Prop}
    {acts : Approval → Prop} (h : Holder env k sent acts)
    (hs : ∀ cdj raw sig, sent' cdj raw sig → sent cdj raw sig) : Holder env k sent' acts :=
  ⟨h.browser, fun cdj raw sig h1 => h.unforged cdj raw sig (hs _ _ _ h1),
    fun cdj raw sig a h1 => h.noCollision cdj raw sig a (hs _ _ _ h1), h.digest⟩

/-- C70: whatever others have sent, a user with a registered credential who asks for a
login is given a challenge, when the application did not give out the same random bytes
before. -/
theorem C70_request {app : App} {evs pre : List Event} {e : Event} {id ch : Bytes} {name : String}
    {k : CPK} {t : Int} (ho : Occurs evs pre e) (hr : Registers app pre e id name k)
    (hfresh : ∀ pre e n t name', Occurs evs pre e → ¬ Issues app pre e n ch t name') :
    ∃ n, Issues app evs (.authenticationRequest (some name) ch t) n ch t name := by
  obtain ⟨u, row, hu, rfl, -⟩ := registered_row ho hr
  have inv := inv_run app evs
  obtain ⟨v, -, h1⟩ := authenticationRequest_issued (C64_consistent_history app evs) (t := t) hu
    (ch := ch) fun c hc he => by
      obtain ⟨pre', e', u', p1, -, -, p2⟩ := inv.challenges c hc
      rw [he] at p2
      exact hfresh _ _ _ _ _ p1 p2
  refine ⟨(run app evs).challenges.length + 1, ⟨"requestOptions", v, ?_⟩, Or.inr rfl⟩
  show (step app _ (run app evs)).1 = _
  rw [step, h1]
  rfl

/-- C70: whatever others have sent, the application accepts the login of the holder of a
registered key, in time, if its counter exceeds those of the other approvals of the
holder and nobody was given the authenticator data before. -/
theorem C70_login {app : App} (codec : CodecLaws app.env) (json : JsonLaw app.env)
    {evs pre pre' : List Event} {e e' : Event} {f : Form} {now t : Int} {n : Nat} {ch : Bytes}
    {name chText : String} {c : Credential} {cdj raw sig : Bytes} {handle : Option Bytes}
    {ad : AuthData} {k : CPK} {acts : Approval → Prop}
    -- the challenge and the registration
    (ho : Occurs evs pre e) (hi : Issues app pre e n ch t name) (ht : now - t ≤ 60000)
    (ho' : Occurs evs pre' e') (hr : Registers app pre' e' c.rawId name k)
    -- the form and the response of the browser
    (hf : Submits app f n c name) (hresp : c.response = .assertion cdj raw sig handle)
    (hcdj : ClientDataText "webauthn.get" chText "http://localhost:5000" none cdj)
    (hch : Base64UrlText chText ch)
    (hhandle : ∀ h, handle = some h → ∃ u ∈ (run app evs).users, u.username = name ∧ u.handle = h)
    -- the authenticator data and its signature
    (had : EncodedAuthData app.env ad raw) (hrp : RpHashOk app.env raw "localhost")
    (hup : FlagSet raw 0) (hsig : SignedBy app.env k sig (raw ++ app.env.sha256 cdj))
    -- the key is used by its holder, who counts
    (holder : Holder app.env k (Sent app evs) acts)
    (hlatest : ∀ a, acts a → a.raw ≠ raw →
      ∃ m : Nat, BigEndian ((a.raw.drop 33).take 4) m ∧ m < ad.signCount)
    (hkept : ∀ cdj' sig', ¬ Sent app evs cdj' raw sig') :
    reply app evs (.authenticationResponse f now) = success := by
  refine C56_authentication codec json ho hi ht ho' hr hf hresp hcdj hch hhandle had hrp hup hsig ?_
  rintro pre₁ e₁ m ho₁ ⟨f₁, t₁, n₁, c₁, name₁, m₁, rfl, h1, h2, h3, rfl, h4⟩
  obtain ⟨post, hpost⟩ := ho₁
  have hat : evs[pre₁.length]? = some (.authenticationResponse f₁ t₁) := by
    rw [hpost]
    simp
  have htake : evs.take pre₁.length = pre₁ := by
    rw [hpost]
    simp
  have hlog : LoginAt app evs c₁ pre₁.length := ⟨f₁, t₁, n₁, name₁, hat, by rw [htake]; exact h1, h2⟩
  rw [← h3] at hr
  have hreg := login_registered codec ho' hr hlog
  rw [htake] at hreg
  have sub : ∀ cdj raw sig, Sent app (pre₁ ++ [.authenticationResponse f₁ t₁]) cdj raw sig →
      Sent app evs cdj raw sig := by
    rintro cdj raw sig ⟨f', t', n', c', name'', handle, hm, hs⟩
    refine ⟨f', t', n', c', name'', handle, ?_, hs⟩
    rw [hpost]
    simp only [List.mem_append, List.mem_cons, List.not_mem_nil, or_false] at hm ⊢
    tauto
  obtain ⟨-, a, _, _, _, _, _, ha, hap, -⟩ := C65_login codec json (holder.mono sub) hreg hr h1 h2
  obtain ⟨sig₁, handle₁, h5⟩ := hap.response
  have hsent : Sent app evs a.cdj a.raw sig₁ :=
    ⟨f₁, t₁, n₁, c₁, name₁, handle₁, by rw [hpost]; simp, h2, h5⟩
  have hne : a.raw ≠ raw := by
    intro he
    rw [he] at hsent
    exact hkept _ _ hsent
  obtain ⟨m, h6, h7⟩ := hlatest a ha hne
  obtain ⟨cdj₂, raw₂, sig₂, handle₂, h8, h9⟩ := h4
  rw [h5] at h8
  cases h8
  rw [bigEndian_iff] at h6 h9
  omega

section
variable {ι : Type} [DecidableEq ι] {app : App} {reqs : ι → Event} {sched : List ι}

/-- C70, when requests overlap: whatever the others do, the application accepts the login
of the holder of a registered key. -/
theorem C70_overlapping (codec : CodecLaws app.env) (json : JsonLaw app.env)
    {pre : List ι} {i j j' : ι} {f : Form} {now t : Int} {n : Nat} {ch : Bytes}
    {name chText : String} {c : Credential} {cdj raw sig : Bytes} {handle : Option Bytes}
    {ad : AuthData} {k : CPK} {acts : Approval → Prop}
    -- the challenge was issued and the credential registered, then the response sent
    (hpre : pre <+: sched) (hi : IssuedAt app reqs pre j n ch t name) (ht : now - t ≤ 60000)
    (hr : RegisteredAt app reqs pre j' c.rawId name k)
    (hreq : reqs i = .authenticationResponse f now) (hnot : i ∉ pre) (hcount : 6 ≤ sched.count i)
    -- the form and the response of the browser
    (hf : Submits app f n c name) (hresp : c.response = .assertion cdj raw sig handle)
    (hcdj : ClientDataText "webauthn.get" chText "http://localhost:5000" none cdj)
    (hch : Base64UrlText chText ch)
    (hhandle : ∀ h, handle = some h →
      ∃ u ∈ (serveAll app reqs pre).db.users, u.username = name ∧ u.handle = h)
    -- the authenticator data and its signature
    (had : EncodedAuthData app.env ad raw) (hrp : RpHashOk app.env raw "localhost")
    (hup : FlagSet raw 0) (hsig : SignedBy app.env k sig (raw ++ app.env.sha256 cdj))
    -- the key is used by its holder, who counts
    (holder : Holder app.env k (SentIn app reqs) acts)
    (hlatest : ∀ a, acts a → a.raw ≠ raw →
      ∃ m : Nat, BigEndian ((a.raw.drop 33).take 4) m ∧ m < ad.signCount)
    (hkept : ∀ j f' t' n' c' name' cdj' sig' handle', j ≠ i → reqs j = .authenticationResponse f' t' →
      Submits app f' n' c' name' → c'.response ≠ .assertion cdj' raw sig' handle') :
    answer app reqs sched i = some success := by
  refine C63_authentication codec json hpre hi ht hr hreq hnot hcount hf hresp hcdj hch hhandle had hrp
    hup hsig ?_
  rintro p j₁ m hp - hj ⟨f₁, t₁, n₁, c₁, name₁, m₁, h0, h1, h2, h3, rfl, h4⟩
  have h1 := answer_mono ((List.prefix_append _ _).trans hp) h1
  have hr := registeredAt_mono hpre hr
  rw [← h3] at hr
  obtain ⟨-, a, _, _, _, _, _, ha, hap, -⟩ := C65_overlapping codec json holder hr h0 h1 h2
  obtain ⟨sig₁, handle₁, h5⟩ := hap.response
  have hne : a.raw ≠ raw := by
    intro he
    rw [he] at h5
    exact hkept _ _ _ _ _ _ _ _ _ hj h0 h2 h5
  obtain ⟨m, h6, h7⟩ := hlatest a ha hne
  obtain ⟨cdj₂, raw₂, sig₂, handle₂, h8, h9⟩ := h4
  rw [h5] at h8
  cases h8
  rw [bigEndian_iff] at h6 h9
  omega

end

end WebAuthn.Flask
