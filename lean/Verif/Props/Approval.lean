import Mathlib.Data.List.FinRange
import Mathlib.Data.List.Perm.Subperm
import Verif.Props.Ceremony
import Verif.Props.Phishing

/-!
# Authentications were approved by the holder of the key (C69)

C65 and C67 of the backend itself: for every registrar, and all arguments.
-/

namespace WebAuthn.Flask

open WebAuthn WebAuthn.Spec WebAuthn.Props

/-- C69: an authentication with a credential whose key is `k` succeeds only if the holder of
the key approved it: on a page of an expected origin, with the expected challenge, for the
Relying Party, and verified if so required. -/
theorem C69_approved {σ ι : Type} {env : Env} (json : JsonLaw env) {reg : Registrar σ}
    {calls : ι → AssertionArgs} {i : ι} {s s' : σ} {k : CPK} {acts : Approval → Prop}
    (holder : Holder env k (SentTo calls) acts)
    (hkey : ∀ cd s1, reg.getCredentialData (calls i).credential.rawId s = (.ok (some cd), s1) →
      cd.publicKey = k)
    (h : handleAssertion env reg (calls i) s = (.ok (), s')) :
    ∃ a rp cd s1, acts a ∧ reg.getCredentialData (calls i).credential.rawId s = (.ok (some cd), s1) ∧
      RpOk cd.rp (calls i).rp rp ∧ ApprovesCall env a (calls i) rp := by
  obtain ⟨-, -, cd, s1, user, rp, ad, h1, ⟨cdj, raw, sig, handle, h2, -, h3,
    ⟨c, ⟨d, h4, h5, h6, h7, -⟩, h8, h9, h10, -⟩, ⟨-, h11, h12, h13, -⟩, h14, -⟩, -⟩ :=
    C17_authentication_accepts_exactly.mp h
  rw [hkey cd s1 h1] at h14
  have hsent : SentTo calls cdj raw sig := ⟨i, handle, h2⟩
  obtain ⟨a, ha, he⟩ := holder.unforged cdj raw sig hsent h14
  have hlen : raw.length = a.raw.length := by
    have := congrArg List.length he
    simp only [List.length_append, holder.digest] at this
    omega
  obtain ⟨e1, e2⟩ := List.append_inj he hlen
  have e3 := holder.noCollision cdj raw sig a hsent ha e2
  subst e1 e3
  obtain ⟨text', hb, t, d', hu, hj, l1, l2, l3, -⟩ := holder.browser a ha
  obtain ⟨t', hu', hj'⟩ := h4
  obtain rfl := utf8_unique hu hu'
  rw [json _ _ hj, Except.ok.injEq, PyVal.dict.injEq] at hj'
  subst hj'
  have o := PyVal.str.inj (lookup_unique l3 h7)
  have ty := PyVal.str.inj (lookup_unique l1 h5)
  have ct := PyVal.str.inj (lookup_unique l2 h6)
  rw [ct] at hb
  rw [← urlBase64Decode_ok_iff] at hb h9
  rw [hb, Except.ok.injEq] at h9
  exact ⟨a, rp, cd, s1, ha, h1, h3, o ▸ h10, ty.trans h8, h9, h11, h12, h13, sig, handle, h2⟩

/-- C69: if the holder of the key approved only on pages of other origins, or only for other
Relying Parties, no authentication with the credential succeeds. -/
theorem C69_phishing {σ ι : Type} {env : Env} (json : JsonLaw env) {reg : Registrar σ}
    {calls : ι → AssertionArgs} {i : ι} {s s' : σ} {k : CPK} {acts : Approval → Prop}
    (holder : Holder env k (SentTo calls) acts)
    (hkey : ∀ cd s1, reg.getCredentialData (calls i).credential.rawId s = (.ok (some cd), s1) →
      cd.publicKey = k)
    (hother : ∀ a, acts a →
      (∀ o e, OriginOf env a.origin o → e ∈ originList (calls i).expectedOrigin →
        ¬ OriginOf env e o) ∨
      ∀ cd s1 rp, reg.getCredentialData (calls i).credential.rawId s = (.ok (some cd), s1) →
        RpOk cd.rp (calls i).rp rp → ¬ RpHashOk env a.raw rp.id) :
    handleAssertion env reg (calls i) s ≠ (.ok (), s') := by
  intro h
  obtain ⟨a, rp, cd, s1, ha, h1, h2, hap⟩ := C69_approved json holder hkey h
  rcases hother a ha with hno | hno
  · obtain ⟨o, ho, e, he, ho'⟩ := hap.page
    exact hno o e ho he ho'
  · exact hno cd s1 rp h1 h2 hap.rp

/-- C69: one approval is good for one authentication, if no two calls expect the same
challenge. -/
theorem C69_one_each {σ ι : Type} {env : Env} (json : JsonLaw env) {reg : Registrar σ}
    {calls : ι → AssertionArgs} {before after : ι → σ} {k : CPK} {acts : Approval → Prop}
    (holder : Holder env k (SentTo calls) acts)
    (hkey : ∀ i cd s1, reg.getCredentialData (calls i).credential.rawId (before i) =
      (.ok (some cd), s1) → cd.publicKey = k)
    (hch : ∀ i j, (calls i).expectedChallenge = (calls j).expectedChallenge → i = j)
    (h : ∀ i, handleAssertion env reg (calls i) (before i) = (.ok (), after i)) :
    ∃ approval : ι → Approval, Function.Injective approval ∧ ∀ i, acts (approval i) ∧
      ∃ rp, ApprovesCall env (approval i) (calls i) rp := by
  choose a rp cd s1 h1 h2 h3 h4 using fun i => C69_approved json holder (hkey i) (h i)
  refine ⟨a, fun i j hij => hch i j ?_, fun i => ⟨h1 i, rp i, h4 i⟩⟩
  rw [← (h4 i).challenge, ← (h4 j).challenge, hij]

/-- C69: so the authentications are not more than the approvals. -/
theorem C69_count {σ : Type} {n : Nat} {env : Env} (json : JsonLaw env) {reg : Registrar σ}
    {calls : Fin n → AssertionArgs} {before after : Fin n → σ} {k : CPK} {approvals : List Approval}
    (holder : Holder env k (SentTo calls) (· ∈ approvals))
    (hkey : ∀ i cd s1, reg.getCredentialData (calls i).credential.rawId (before i) =
      (.ok (some cd), s1) → cd.publicKey = k)
    (hch : ∀ i j, (calls i).expectedChallenge = (calls j).expectedChallenge → i = j)
    (h : ∀ i, handleAssertion env reg (calls i) (before i) = (.ok (), after i)) :
    n ≤ approvals.length := by
  obtain ⟨f, hf, hm⟩ := C69_one_each json holder hkey hch h
  have hn : (List.ofFn f).Nodup := List.nodup_ofFn.mpr hf
  have := hn.subperm (l₂ := approvals) (by
    intro x hx
    obtain ⟨i, rfl⟩ := (List.mem_ofFn' _ _).mp hx
    exact (hm i).1)
  simpa using this.length_le

/-! ## A concrete case -/

namespace Approved

def approval : Approval := ⟨Demo.origin, "webauthn.get", Demo.challenge, Demo.authCdj, Demo.authRaw⟩

/-- The authentication of the concrete case, and one of a site with another origin. -/
def calls (other : Bool) : AssertionArgs :=
  if other then { Demo.authArgs with expectedOrigin := .one "https://other.example" }
  else Demo.authArgs

theorem calls_response (b : Bool) : (calls b).credential = Demo.authCredential := by
  cases b <;> simp [calls, Demo.authArgs]

theorem holder {ι : Type} (c : ι → AssertionArgs) (h : ∀ i, (c i).credential = Demo.authCredential) :
    Holder Demo.env Demo.key (SentTo c) (· ∈ [approval]) where
  browser := by
    intro a ha
    simp only [List.mem_singleton] at ha
    subst ha
    exact ⟨_, Demo.challengeText_ok, clientData_client rfl⟩
  unforged := by
    rintro cdj raw sig ⟨i, handle, hc⟩ -
    rw [h i] at hc
    simp only [Demo.authCredential, Response.assertion.injEq] at hc
    exact ⟨approval, by simp, by simp only [approval, hc.1, hc.2.1]⟩
  noCollision := by
    rintro cdj raw sig a ⟨i, handle, hc⟩ ha -
    simp only [List.mem_singleton] at ha
    rw [h i] at hc
    simp only [Demo.authCredential, Response.assertion.injEq] at hc
    simp only [ha, approval, hc.1]
  digest := Demo.sha_length

def store : Demo.Store := [(Demo.credId, Demo.stored 1)]

theorem stored_key {id : Bytes} {cd : CredentialData} {s1 : Demo.Store} (hid : id = Demo.credId)
    (h : Demo.registrar.getCredentialData id store = (.ok (some cd), s1)) : cd.publicKey = Demo.key := by
  subst hid
  have h : (Except.ok (Demo.lookup store Demo.credId), store) = (Except.ok (some cd), s1) := h
  rw [store, Demo.lookup_head] at h
  simp only [Prod.mk.injEq, Except.ok.injEq, Option.some.injEq] at h
  rw [← h.1]
  rfl

example : 1 ≤ [approval].length :=
  C69_count (calls := fun _ : Fin 1 => Demo.authArgs) (before := fun _ => store)
    (after := fun _ => (Demo.credId, Demo.stored 2) :: store) Demo.json
    (holder _ fun _ => rfl) (fun _ _ _ h => stored_key rfl h) (fun _ _ _ => Subsingleton.elim _ _)
    fun _ => Demo.authentication_ok []

/-- The other site refuses what was approved on the page of the first. -/
example (s' : Demo.Store) :
    handleAssertion Demo.env Demo.registrar (calls true) store ≠ (.ok (), s') := by
  refine C69_phishing Demo.json (holder calls calls_response)
    (fun cd s1 h => stored_key (by rw [calls_response]; rfl) h) ?_
  intro a ha
  simp only [List.mem_singleton] at ha
  subst ha
  refine .inl fun o e h1 he h2 => ?_
  simp only [calls, if_true, originList, List.mem_singleton] at he
  subst he
  have h1 : OriginOf Demo.env "https://example.com" o := h1
  have e1 := parseOrigin_ok_iff.mpr h1
  have e2 := parseOrigin_ok_iff.mpr h2
  rw [show parseOrigin Demo.env "https://example.com" = .ok ⟨"https", "example.com", 443⟩ from rfl] at e1
  rw [show parseOrigin Demo.env "https://other.example" = .ok ⟨"https", "other.example", 443⟩
    from rfl] at e2
  rw [← e1] at e2
  exact absurd e2 (by simp)

end Approved

end WebAuthn.Flask
