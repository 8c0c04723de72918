import Verif.Spec.Ceremony
import Verif.Model.Backend
import Verif.Lemmas.AuthData
import Verif.Lemmas.Base64
import Verif.Lemmas.Origin

/-!
# The ceremony checks against the specification
-/

namespace WebAuthn

open Spec

/-! ## Outcomes -/

theorem finalise_ok_iff {α : Type} {m : Py α} {a : α} : finalise m = .ok a ↔ m = .ok a := by
  cases m with
  | ok => simp [finalise]
  | error e => simp only [finalise, raise]; split; · simp
               split <;> simp

theorem checkWrite_ok_iff {r : Py (Option String)} {u : Unit} :
    checkWrite r = .ok u ↔ r = .ok none := by
  cases r with
  | ok o => cases o <;> simp [checkWrite, raise]
  | error e => simp only [checkWrite, raise]; split <;> simp

theorem checkRead_ok_iff {r : Py (Option CredentialData)} {cd : CredentialData} :
    checkRead r = .ok cd ↔ r = .ok (some cd) := by
  cases r with
  | ok o => cases o <;> simp [checkRead, raise]
  | error e => simp only [checkRead, raise]; split <;> simp

/-! ## Keys -/

theorem ec2CurveClass_ok_iff {crv : NV Curve} {c : CurveClass} :
    ec2CurveClass crv = .ok c ↔ NistCurve crv.id c := by
  unfold ec2CurveClass
  constructor
  · intro h
    split at h
    all_goals first | (cases h; rename_i h; rw [h]; constructor) | cases h
  · intro h
    generalize crv.id = i at h
    cases h <;> rfl

theorem ec2HashAlgorithm_ok_iff {alg : NV Alg} {h : HashAlg} :
    ec2HashAlgorithm alg = .ok h ↔ EcdsaHash alg.id h := by
  unfold ec2HashAlgorithm
  constructor
  · intro h
    split at h
    all_goals first | (cases h; rename_i h; rw [h]; constructor) | cases h
  · intro h
    generalize alg.id = i at h
    cases h <;> rfl

theorem unit_eq (u : Unit) : u = () := rfl

theorem cryptographyPublicKey_ok_iff {env : Env} {k : CPK} {pk : CryptoKey} :
    cryptographyPublicKey env k = .ok pk ↔ KeyOf env k pk := by
  cases k with
  | ec2 b x y crv =>
    simp only [cryptographyPublicKey, bind_ok_iff, catching_ok_iff, ec2CurveClass_ok_iff,
      pure_eq_ok, Except.ok.injEq]
    constructor
    · rintro ⟨c, hc, u, hu, rfl⟩
      exact .ec2 b x y crv c _ _ hc (bigEndian_beNat x) (bigEndian_beNat y) hu
    · intro h
      cases h with
      | ec2 _ _ _ _ c nx ny hc hx hy hp =>
        rw [bigEndian_iff] at hx hy
        subst hx hy
        exact ⟨c, hc, (), hp, rfl⟩
  | okp b crv x =>
    simp only [cryptographyPublicKey, catching_ok_iff]
    constructor
    · intro h
      split at h
      · rename_i hc
        simp only [bind_ok_iff, pure_eq_ok, Except.ok.injEq] at h
        obtain ⟨u, hu, rfl⟩ := h
        exact .ed25519 b crv x hc hu
      · rename_i hc
        simp only [bind_ok_iff, pure_eq_ok, Except.ok.injEq] at h
        obtain ⟨u, hu, rfl⟩ := h
        exact .ed448 b crv x hc hu
      · cases h
    · intro h
      cases h with
      | ed25519 _ _ _ hc hu => rw [hc]; simp only [hu]; rfl
      | ed448 _ _ _ hc hu => rw [hc]; simp only [hu]; rfl
  | base b =>
    constructor
    · intro h; cases h
    · intro h; cases h

theorem verify_ok_iff {env : Env} {k : CPK} {sig data : Bytes} {u : Unit} :
    verify env k sig data = .ok u ↔ SignedBy env k sig data := by
  cases k with
  | ec2 b x y crv =>
    simp only [verify, bind_ok_iff, cryptographyPublicKey_ok_iff]
    constructor
    · rintro ⟨pk, hk, h⟩
      split at h
      · cases h
      · rename_i alg ha
        simp only [bind_ok_iff, ec2HashAlgorithm_ok_iff, catching_ok_iff] at h
        obtain ⟨hh, h1, h2⟩ := h
        exact .ecdsa b x y crv pk alg hh sig data hk ha h1 h2
    · intro h
      cases h with
      | ecdsa _ _ _ _ pk alg hh _ _ hk ha h1 h2 =>
        refine ⟨pk, hk, ?_⟩
        rw [ha]
        simp only [bind_ok_iff, ec2HashAlgorithm_ok_iff, catching_ok_iff]
        exact ⟨hh, h1, h2⟩
  | okp b crv x =>
    simp only [verify, bind_ok_iff, cryptographyPublicKey_ok_iff, catching_ok_iff]
    constructor
    · rintro ⟨pk, hk, h⟩
      exact .eddsa b crv x pk sig data hk h
    · intro h
      cases h with
      | eddsa _ _ _ pk _ _ hk h => exact ⟨pk, hk, h⟩
  | base b =>
    constructor
    · intro h; cases h
    · intro h; cases h

/-! ## Client data -/

theorem extractAllowedOrigins_ok_iff {env : Env} {e : ExpectedOrigin} {l : List Origin} :
    extractAllowedOrigins env e = .ok l ↔
      originList e ≠ [] ∧ List.Forall₂ (OriginOf env) (originList e) l := by
  cases e with
  | one s =>
    simp only [extractAllowedOrigins, bind_ok_iff, parseOrigin_ok_iff, pure_eq_ok,
      Except.ok.injEq, originList]
    constructor
    · rintro ⟨o, ho, rfl⟩
      exact ⟨by simp, .cons ho .nil⟩
    · rintro ⟨-, h⟩
      cases h with
      | cons ho h => cases h; exact ⟨_, ho, rfl⟩
  | many xs =>
    simp only [extractAllowedOrigins, bind_ok_iff, require_ok_iff, mapM_ok_iff,
      parseOrigin_ok_iff, originList]
    constructor
    · rintro ⟨u, h1, h2⟩
      refine ⟨?_, h2⟩
      rintro rfl
      simp at h1
    · rintro ⟨h1, h2⟩
      refine ⟨(), ?_, h2⟩
      cases xs with
      | nil => exact absurd rfl h1
      | cons x xs => simp

theorem forall₂_exists {α β : Type} {R : α → β → Prop} {l : List α} :
    (∃ l', List.Forall₂ R l l') ↔ ∀ a ∈ l, ∃ b, R a b := by
  induction l with
  | nil => simp
  | cons a l ih =>
    constructor
    · rintro ⟨l', h⟩
      cases h with
      | cons h1 h2 =>
        intro x hx
        rcases List.mem_cons.mp hx with rfl | hx
        · exact ⟨_, h1⟩
        · exact ih.mp ⟨_, h2⟩ x hx
    · intro h
      obtain ⟨b, hb⟩ := h a (by simp)
      obtain ⟨l', hl⟩ := ih.mpr (fun x hx => h x (by simp [hx]))
      exact ⟨b :: l', .cons hb hl⟩

theorem expectedOk_iff {env : Env} {e : ExpectedOrigin} :
    ExpectedOk env e ↔ ∃ l, extractAllowedOrigins env e = .ok l := by
  simp only [extractAllowedOrigins_ok_iff, ExpectedOk, ← forall₂_exists]
  constructor
  · rintro ⟨h1, l, h2⟩; exact ⟨l, h1, h2⟩
  · rintro ⟨l, h1, h2⟩; exact ⟨h1, l, h2⟩

theorem originOf_unique {env : Env} {s : String} {o o' : Origin} (h : OriginOf env s o)
    (h' : OriginOf env s o') : o = o' := by
  rw [← parseOrigin_ok_iff] at h h'
  rw [h] at h'
  simpa using h'

theorem mem_allowed_iff {env : Env} {e : ExpectedOrigin} {l : List Origin} {o : Origin}
    (h : extractAllowedOrigins env e = .ok l) :
    o ∈ l ↔ ∃ s ∈ originList e, OriginOf env s o := by
  rw [extractAllowedOrigins_ok_iff] at h
  replace h := h.2
  generalize originList e = xs at h
  induction h with
  | nil => simp
  | cons h1 h2 ih =>
    simp only [List.mem_cons, ih, exists_eq_or_imp]
    refine or_congr ?_ Iff.rfl
    constructor
    · rintro rfl; exact h1
    · intro h; exact originOf_unique h h1

theorem checkChallenge_ok_iff {c : String} {b : Bytes} {u : Unit} :
    checkChallenge c b = .ok u ↔ Base64UrlText c b := by
  simp only [checkChallenge, catching_ok_iff, bind_ok_iff, urlBase64Decode_ok_iff, require_ok_iff,
    beq_iff_eq]
  constructor
  · rintro ⟨b', h, rfl⟩; exact h
  · intro h; exact ⟨b, h, rfl⟩

theorem tokenIdEq_iff {e : Option String} {v : PyVal} :
    tokenIdEq e v = true ↔ (e = none ∧ v = .none) ∨ ∃ s, e = some s ∧ v = .str s := by
  unfold tokenIdEq
  constructor
  · intro h
    split at h
    · exact Or.inl ⟨rfl, rfl⟩
    · rename_i s t
      rw [beq_iff_eq] at h
      exact Or.inr ⟨s, rfl, by rw [h]⟩
    · cases h
  · rintro (⟨rfl, rfl⟩ | ⟨s, rfl, rfl⟩)
    · rfl
    · simp

theorem checkTokenBinding_ok_iff {e : Option TokenBinding} {g : Option ClientTokenBinding}
    {u : Unit} : checkTokenBinding e g = .ok u ↔ TokenBindingOk e g := by
  unfold checkTokenBinding
  constructor
  · intro h
    split at h
    · split at h
      · cases h
      · rename_i tb _ g
        simp only [bind_ok_iff, require_ok_iff, beq_iff_eq, tokenIdEq_iff] at h
        obtain ⟨-, h1, h2⟩ := h
        obtain ⟨st, i⟩ := tb
        obtain ⟨st', v⟩ := g
        simp only at h1 h2
        subst h1
        rcases h2 with ⟨rfl, rfl⟩ | ⟨s, rfl, rfl⟩
        · exact .noId st
        · exact .withId st s
    · rw [require_ok_iff] at h
      rw [Option.isNone_iff_eq_none] at h
      rw [h]
      exact .none
  · intro h
    cases h with
    | none => rfl
    | noId st => simp [require, tokenIdEq]
    | withId st id => simp [require, tokenIdEq]

theorem checkClientData_ok_iff {env : Env} {cdj : Bytes} {type : String} {ch : Bytes}
    {e : ExpectedOrigin} {allowed : List Origin} {tb : Option TokenBinding} {u : Unit}
    (ha : extractAllowedOrigins env e = .ok allowed) :
    checkClientData env cdj type ch allowed tb = .ok u ↔ ClientOk env cdj type ch e tb := by
  simp only [checkClientData, bind_ok_iff, parseClientData_ok_iff, require_ok_iff, beq_iff_eq,
    checkChallenge_ok_iff, parseOrigin_ok_iff, checkTokenBinding_ok_iff, List.contains_iff_mem,
    mem_allowed_iff ha, ClientOk, OriginAllowed]
  constructor
  · rintro ⟨cd, h1, _, h2, _, h3, o, h4, _, h5, h6⟩
    exact ⟨cd, h1, h2, h3, ⟨o, h4, h5⟩, h6⟩
  · rintro ⟨cd, h1, h2, h3, ⟨o, h4, h5⟩, h6⟩
    exact ⟨cd, h1, (), h2, (), h3, o, h4, (), h5, h6⟩

/-! ## Authenticator data -/

theorem extKey_eq (e : ExtId) : e.key = match e with
    | .APPID => "appid"
    | .TX_AUTH_SIMPLE => "tx_auth_simple"
    | .TX_AUTH_GENERIC => "tx_auth_generic"
    | .AUTHN_SEL => "authn_sel"
    | .EXTS => "exts"
    | .UVI => "uvi"
    | .LOC => "loc"
    | .UVM => "uvm"
    | .BIOMETRIC_PERF_BOUNDS => "biometric_perf_bounds" := by
  cases e <;> decide

theorem extAttrPresent_iff {ext : Option Extensions} {i : ExtId} :
    extAttrPresent ext i.key = true ↔ ∃ e, ext = some e ∧ HasExtension e i := by
  cases ext with
  | none => simp [extAttrPresent]
  | some e =>
    simp only [extAttrPresent, extKey_eq, Option.some.injEq, exists_eq_left', HasExtension]
    cases i <;> simp [Option.isSome_iff_ne_none]

theorem checkExtensions_ok_iff {expected : Option (List ExtId)} {ext : Option Extensions}
    {u : Unit} : checkExtensions expected ext = .ok u ↔ ExtensionsOk expected ext := by
  cases expected with
  | none => simp [checkExtensions, ExtensionsOk]
  | some l =>
    simp [checkExtensions, ExtensionsOk, require_ok_iff, List.all_eq_true, extAttrPresent_iff]

/-- Facts about the bytes of well-formed authenticator data. -/
theorem authDataOf_head {env : Env} {raw : Bytes} {ad : AuthData} (h : AuthDataOf env raw ad) :
    ad.rpIdHash = raw.take 32 ∧ ad.flags < 256 ∧
    (∃ f, raw[32]? = some f ∧ f.toNat = ad.flags) ∧
    BigEndian ((raw.drop 33).take 4) ad.signCount := by
  obtain ⟨flags, count, body, mid, rfl, h1, h2, h3, h4, -, -⟩ := h
  refine ⟨?_, ?_, ⟨flags, ?_, h2.symm⟩, ?_⟩
  · simp [h1]
  · rw [h2]; exact flags.toNat_lt
  · simp [h1]
  · have e1 : List.drop 33 (ad.rpIdHash ++ [flags] ++ count ++ body) = count ++ body := by
      simp [List.drop_append, h1]
    rw [e1, List.take_append, h3]
    simp only [Nat.sub_self, List.take_zero, List.append_nil]
    rw [List.take_of_length_le (by omega)]
    exact h4

theorem flagSet_iff {env : Env} {raw : Bytes} {ad : AuthData} (h : AuthDataOf env raw ad)
    (i : Nat) : FlagSet raw i ↔ (1 <<< i &&& ad.flags != 0) = true := by
  obtain ⟨-, -, ⟨f, hf, he⟩, -⟩ := authDataOf_head h
  rw [bne_iff_ne, Nat.and_comm, and_two_pow_ne_zero, FlagSet, hf, ← he]
  simp

theorem checkAuthData_ok_iff {env : Env} {raw : Bytes} {ad : AuthData} {rpId : String}
    {uv : Bool} {expected : Option (List ExtId)} {u : Unit} (h : AuthDataOf env raw ad) :
    checkAuthData ad (env.sha256 (utf8Encode rpId)) uv expected = .ok u ↔
      AuthOk env raw ad rpId uv expected := by
  simp only [checkAuthData, bind_ok_iff, require_ok_iff, checkExtensions_ok_iff, beq_iff_eq,
    AuthOk, RpHashOk, Utf8, exists_eq_left, flagSet_iff h, ← (authDataOf_head h).1, h, true_and]
  constructor
  · rintro ⟨_, h1, _, h2, _, h3, h4⟩
    refine ⟨h1, h2, fun hu => ?_, h4⟩
    rw [hu] at h3
    exact h3
  · rintro ⟨h1, h2, h3, h4⟩
    refine ⟨(), h1, (), h2, (), ?_, h4⟩
    cases uv with
    | false => rfl
    | true => exact h3 rfl

/-! ## Identities and counter -/

theorem resolveUser_ok_iff {user : Option UserEntity} {reg eff : UserEntity} {cdj raw sig : Bytes}
    {handle : Option Bytes} :
    resolveUser user reg (.assertion cdj raw sig handle) = .ok eff ↔
      UserOk reg user handle eff := by
  simp only [resolveUser, Response.userHandle, bind_ok_iff, require_ok_iff, pure_eq_ok,
    Except.ok.injEq, exists_eq_left']
  constructor
  · rintro ⟨u, h1, _, h2, rfl⟩
    cases user with
    | some u' =>
      simp only [effectiveUser, bind_ok_iff, require_ok_iff, beq_iff_eq, pure_eq_ok,
        Except.ok.injEq] at h1
      obtain ⟨-, h1, rfl⟩ := h1
      refine .given u' handle h1.symm ?_
      rintro h rfl
      rw [h1]
      simpa using h2
    | none =>
      simp only [effectiveUser, Response.userHandle, bind_ok_iff, require_ok_iff, pure_eq_ok,
        Except.ok.injEq, exists_eq_left'] at h1
      obtain ⟨-, h1, rfl⟩ := h1
      obtain ⟨h, rfl⟩ := Option.isSome_iff_exists.mp h1
      rw [show h = reg.id from by simpa using h2]
      exact .fromHandle
  · intro h
    cases h with
    | given u hd h1 h2 =>
      refine ⟨eff, ?_, (), ?_, rfl⟩
      · simp [effectiveUser, require, h1]
      · cases handle with
        | none => rfl
        | some hd => simp [h1, h2 hd rfl]
    | fromHandle => exact ⟨reg, by simp [effectiveUser, Response.userHandle, require], (), by simp, rfl⟩

theorem resolveUser_attestation {user : Option UserEntity} {reg eff : UserEntity} {cdj o : Bytes} :
    resolveUser user reg (.attestation cdj o) ≠ .ok eff := by
  simp only [resolveUser, Response.userHandle, Ne, bind_ok_iff]
  rintro ⟨_, _, _, h, _⟩
  cases h

theorem resolveRp_ok_iff {rp reg : Option RpEntity} {eff : RpEntity} :
    resolveRp rp reg = .ok eff ↔ RpOk reg rp eff := by
  constructor
  · intro h
    cases reg with
    | none =>
      cases rp with
      | none => cases h
      | some rp => simp only [resolveRp, Except.ok.injEq] at h; subst h; exact .arg rp
    | some r =>
      cases rp with
      | none => simp only [resolveRp, Except.ok.injEq] at h; subst h; exact .registered r
      | some rp =>
        simp only [resolveRp, bind_ok_iff, require_ok_iff, beq_iff_eq, pure_eq_ok,
          Except.ok.injEq] at h
        obtain ⟨-, h1, rfl⟩ := h
        exact .both r rp h1
  · intro h
    cases h with
    | arg => rfl
    | registered => rfl
    | both r rp h => simp [resolveRp, require, h]

theorem checkSignCount_ok_iff {env : Env} {raw : Bytes} {ad : AuthData} {stored : Option Int}
    {ignore : Bool} {u : Unit} (h : AuthDataOf env raw ad) :
    checkSignCount stored ad.signCount ignore = .ok u ↔ CounterOk stored raw ignore := by
  have hc := (authDataOf_head h).2.2.2
  cases stored with
  | none => simp [checkSignCount, CounterOk]
  | some n =>
    simp only [checkSignCount, require_ok_iff, CounterOk, Option.some.injEq, forall_eq']
    constructor
    · intro h1 h2
      refine ⟨_, hc, ?_⟩
      rw [h2] at h1
      simpa using h1
    · intro h1
      cases ignore with
      | true => simp
      | false =>
        obtain ⟨c, h2, h3⟩ := h1 rfl
        rw [bigEndian_iff] at h2 hc
        simp only [Bool.or_false, Bool.not_eq_true', decide_eq_false_iff_not, Int.not_le]
        rw [hc, ← h2]
        exact h3

theorem allowOk_iff {allow : Option (List Descriptor)} {rawId : Bytes} :
    AllowOk allow rawId ↔ ∀ l, allow = some l → (l.any fun c => c.id == rawId) = true := by
  simp [AllowOk, List.any_eq_true]

theorem assertionPre_ok_iff {env : Env} {a : AssertionArgs} {allowed : List Origin} :
    assertionPre env a = .ok allowed ↔
      extractAllowedOrigins env a.expectedOrigin = .ok allowed ∧
      AllowOk a.allowCredentials a.credential.rawId := by
  simp only [assertionPre, bind_ok_iff, allowOk_iff]
  cases a.allowCredentials with
  | none => simp [pure_eq_ok]
  | some l =>
    simp only [bind_ok_iff, require_ok_iff, pure_eq_ok, Except.ok.injEq, Option.some.injEq,
      forall_eq']
    constructor
    · rintro ⟨x, h1, _, h2, rfl⟩; exact ⟨h1, h2⟩
    · rintro ⟨h1, h2⟩; exact ⟨_, h1, (), h2, rfl⟩

/-! ## The two ceremonies -/

theorem assertionChecks_ok_iff {env : Env} {a : AssertionArgs} {allowed : List Origin}
    {cd : CredentialData} {r : AssertionRecord}
    (ha : extractAllowedOrigins env a.expectedOrigin = .ok allowed) :
    assertionChecks env a allowed cd = .ok r ↔
      r.credential = a.credential ∧ AssertionOk env a cd r.user r.rp r.authData := by
  unfold assertionChecks AssertionOk
  cases hr : a.credential.response with
  | attestation cdj o =>
    simp only [bind_ok_iff]
    constructor
    · rintro ⟨user, h, _⟩
      exact absurd h resolveUser_attestation
    · rintro ⟨_, _, _, _, _, h, _⟩
      cases h
  | assertion cdj raw sig handle =>
    simp only [bind_ok_iff, resolveUser_ok_iff, resolveRp_ok_iff, checkClientData_ok_iff ha,
      Response.clientDataJSON, Response.authenticatorData, Response.signature, Except.ok.injEq,
      exists_eq_left', parseAuthenticatorData_ok_iff, verify_ok_iff, pure_eq_ok]
    constructor
    · rintro ⟨user, h1, rp, h2, _, h3, ad, h4, _, h5, _, h6, _, h7, rfl⟩
      exact ⟨rfl, cdj, raw, sig, handle, rfl, h1, h2, h3, (checkAuthData_ok_iff h4).mp h5, h6,
        (checkSignCount_ok_iff h4).mp h7⟩
    · rintro ⟨h0, cdj', raw', sig', handle', he, h1, h2, h3, h5, h6, h7⟩
      cases he
      have h4 := h5.1
      refine ⟨_, h1, _, h2, (), h3, _, h4, (), (checkAuthData_ok_iff h4).mpr h5, (), h6, (),
        (checkSignCount_ok_iff h4).mpr h7, ?_⟩
      cases r
      simp only at h0
      rw [h0]

theorem attestedOf_ok_iff {ad : AuthData} {acd : AttestedCredentialData} :
    attestedOf ad = .ok acd ↔ ad.attested = some acd := by
  unfold attestedOf
  split <;> simp_all

/-- With a key in place of the attestation object only `none` statements pass. -/
theorem attest_key_ok_iff {env : Env} {stmt : AttStmt} {k : Option CPK} {raw hash : Bytes}
    {r : AttestationType × TrustedPath} :
    attest env stmt (.key k) raw hash = .ok r ↔ stmt = .none ∧ r = (.NONE, none) := by
  have hkey : ∀ k, (AttObjArg.key k).authData = .error .attributeError := fun _ => rfl
  cases stmt with
  | fidoU2F sig x5c =>
    simp only [attest, reduceCtorEq, false_and, iff_false]
    unfold attestFidoU2F
    split
    · simp only [bind_ok_iff, not_exists, not_and]
      intro cert _ pk _ h
      split at h
      · simp [bind_ok_iff, hkey] at h
      · cases h
    · simp [raise]
  | androidKey alg sig x5c =>
    simp only [attest, reduceCtorEq, false_and, iff_false]
    unfold attestAndroidKey
    split
    · simp [raise]
    · simp [bind_ok_iff, hkey]
  | none => simp [attest, eq_comm]
  | _ => simp [attest, raise]

theorem attestationChecks_ok_iff {env : Env} {a : AttestationArgs} {r : AttestationRecord} :
    attestationChecks env a = .ok r ↔
      ExpectedOk env a.expectedOrigin ∧ (∃ raw, AttestationOk env a r.att raw) ∧
      r.att.attStmt = .none ∧ r.credential = a.credential ∧ r.attType = .NONE ∧
      r.user = a.user ∧ r.rp = a.rp ∧ r.trustedPath = none := by
  rw [expectedOk_iff]
  unfold attestationChecks AttestationOk
  cases hr : a.credential.response with
  | assertion cdj raw sig handle =>
    simp only [bind_ok_iff, Response.attestationObject, reduceCtorEq, false_and, and_false,
      exists_const]
  | attestation cdj ob =>
    simp only [bind_ok_iff, Response.clientDataJSON, Response.attestationObject, Except.ok.injEq,
      exists_eq_left', Prod.exists, attest_key_ok_iff, pure_eq_ok, attestedOf_ok_iff, Prod.mk.injEq]
    constructor
    · rintro ⟨allowed, ha, _, h3, o, raw, h4, _, h5, acd, h6, t, p, ⟨h7, rfl, rfl⟩, rfl⟩
      rw [parseAttestationObject_ok_iff] at h4
      have had : AuthDataOf env raw o.authData := by obtain ⟨_, _, _, _, _, h, _⟩ := h4; exact h
      exact ⟨⟨allowed, ha⟩, ⟨raw, cdj, ob, rfl, (checkClientData_ok_iff ha).mp h3, h4,
        (checkAuthData_ok_iff had).mp h5, by simp [h6]⟩, h7, rfl, rfl, rfl, rfl, rfl⟩
    · rintro ⟨⟨allowed, ha⟩, ⟨raw, cdj', ob', he, h3, h4, h5, h6⟩, h7, e1, e2, e3, e4, e5⟩
      cases he
      obtain ⟨acd, h6⟩ := Option.ne_none_iff_exists'.mp h6
      refine ⟨allowed, ha, (), (checkClientData_ok_iff ha).mpr h3, r.att, raw,
        parseAttestationObject_ok_iff.mpr h4, (), (checkAuthData_ok_iff h5.1).mpr h5, acd, h6,
        _, _, ⟨h7, rfl, rfl⟩, ?_⟩
      cases r
      simp only at e1 e2 e3 e4 e5
      rw [e1, e2, e3, e4, e5]

theorem handleAttestation_ok_iff {σ : Type} {env : Env} {reg : Registrar σ} {a : AttestationArgs}
    {s s' : σ} :
    handleAttestation env reg a s = (.ok (), s') ↔
      ∃ r, attestationChecks env a = .ok r ∧ reg.registerAttestation r s = (.ok none, s') := by
  unfold handleAttestation
  cases h : attestationChecks env a with
  | error e =>
    simp only [Prod.mk.injEq, finalise_ok_iff, reduceCtorEq, false_and, exists_false]
  | ok r =>
    simp only [Except.ok.injEq, exists_eq_left', Prod.mk.injEq, finalise_ok_iff, checkWrite_ok_iff]
    rw [Prod.ext_iff]

/-! Equations for `handleAssertion`, one per way through the handler. -/

theorem handleAssertion_pre {σ : Type} {env : Env} {reg : Registrar σ} {a : AssertionArgs} {s : σ}
    {e : Exc} (h : assertionPre env a = .error e) :
    handleAssertion env reg a s = (finalise (.error e), s) := by
  unfold handleAssertion
  rw [h]

theorem handleAssertion_read {σ : Type} {env : Env} {reg : Registrar σ} {a : AssertionArgs}
    {s s1 : σ} {allowed : List Origin} {rd : Py (Option CredentialData)} {e : Exc}
    (h : assertionPre env a = .ok allowed)
    (hg : reg.getCredentialData a.credential.rawId s = (rd, s1)) (hr : checkRead rd = .error e) :
    handleAssertion env reg a s = (finalise (.error e), s1) := by
  simp only [handleAssertion, h, hg, hr]

theorem handleAssertion_checks {σ : Type} {env : Env} {reg : Registrar σ} {a : AssertionArgs}
    {s s1 : σ} {allowed : List Origin} {cd : CredentialData} {e : Exc}
    (h : assertionPre env a = .ok allowed)
    (hg : reg.getCredentialData a.credential.rawId s = (.ok (some cd), s1))
    (hc : assertionChecks env a allowed cd = .error e) :
    handleAssertion env reg a s = (finalise (.error e), s1) := by
  simp only [handleAssertion, h, hg, checkRead, hc]

theorem handleAssertion_write {σ : Type} {env : Env} {reg : Registrar σ} {a : AssertionArgs}
    {s s1 s2 : σ} {allowed : List Origin} {cd : CredentialData} {r : AssertionRecord}
    {w : Py (Option String)}
    (h : assertionPre env a = .ok allowed)
    (hg : reg.getCredentialData a.credential.rawId s = (.ok (some cd), s1))
    (hc : assertionChecks env a allowed cd = .ok r) (hw : reg.registerAssertion r s1 = (w, s2)) :
    handleAssertion env reg a s = (finalise (checkWrite w), s2) := by
  simp only [handleAssertion, h, hg, checkRead, hc, hw]

/-- The ways through `handleAssertion`. -/
theorem handleAssertion_cases {σ : Type} (env : Env) (reg : Registrar σ) (a : AssertionArgs)
    (s : σ) :
    (∃ e, assertionPre env a = .error e ∧
      handleAssertion env reg a s = (finalise (.error e), s)) ∨
    ∃ allowed rd s1, assertionPre env a = .ok allowed ∧
      reg.getCredentialData a.credential.rawId s = (rd, s1) ∧
      ((∃ e, checkRead rd = .error e ∧ handleAssertion env reg a s = (finalise (.error e), s1)) ∨
       ∃ cd, rd = .ok (some cd) ∧
        ((∃ e, assertionChecks env a allowed cd = .error e ∧
            handleAssertion env reg a s = (finalise (.error e), s1)) ∨
          ∃ r w s2, assertionChecks env a allowed cd = .ok r ∧
            reg.registerAssertion r s1 = (w, s2) ∧
            handleAssertion env reg a s = (finalise (checkWrite w), s2))) := by
  cases h : assertionPre env a with
  | error e => exact Or.inl ⟨e, rfl, handleAssertion_pre h⟩
  | ok allowed =>
    obtain ⟨rd, s1, hg⟩ : ∃ rd s1, reg.getCredentialData a.credential.rawId s = (rd, s1) :=
      ⟨_, _, rfl⟩
    refine Or.inr ⟨allowed, rd, s1, rfl, hg, ?_⟩
    cases hr : checkRead rd with
    | error e => exact Or.inl ⟨e, rfl, handleAssertion_read h hg hr⟩
    | ok cd =>
      rw [checkRead_ok_iff] at hr
      subst hr
      refine Or.inr ⟨cd, rfl, ?_⟩
      cases hc : assertionChecks env a allowed cd with
      | error e => exact Or.inl ⟨e, rfl, handleAssertion_checks h hg hc⟩
      | ok r =>
        obtain ⟨w, s2, hw⟩ : ∃ w s2, reg.registerAssertion r s1 = (w, s2) := ⟨_, _, rfl⟩
        exact Or.inr ⟨r, w, s2, rfl, hw, handleAssertion_write h hg hc hw⟩

theorem handleAssertion_ok_iff {σ : Type} {env : Env} {reg : Registrar σ} {a : AssertionArgs}
    {s s' : σ} :
    handleAssertion env reg a s = (.ok (), s') ↔
      ∃ allowed cd s1 r, assertionPre env a = .ok allowed ∧
        reg.getCredentialData a.credential.rawId s = (.ok (some cd), s1) ∧
        assertionChecks env a allowed cd = .ok r ∧
        reg.registerAssertion r s1 = (.ok none, s') := by
  constructor
  · intro h
    rcases handleAssertion_cases env reg a s with ⟨e, -, h1⟩ | ⟨al, rd, s1, h1, h2, h3⟩
    · rw [h1, Prod.mk.injEq, finalise_ok_iff] at h
      cases h.1
    · rcases h3 with ⟨e, -, h3⟩ | ⟨cd, rfl, h3⟩
      · rw [h3, Prod.mk.injEq, finalise_ok_iff] at h
        cases h.1
      · rcases h3 with ⟨e, -, h3⟩ | ⟨r, w, s2, h3, h4, h5⟩
        · rw [h3, Prod.mk.injEq, finalise_ok_iff] at h
          cases h.1
        · rw [h5, Prod.mk.injEq, finalise_ok_iff, checkWrite_ok_iff] at h
          obtain ⟨rfl, rfl⟩ := h
          exact ⟨al, cd, s1, r, h1, h2, h3, h4⟩
  · rintro ⟨al, cd, s1, r, h1, h2, h3, h4⟩
    exact handleAssertion_write h1 h2 h3 h4

/-! ## Acceptance -/

/-- Acceptance of an authentication, in terms of the specification. -/
theorem assertion_accepts {σ : Type} {env : Env} {reg : Registrar σ} {a : AssertionArgs}
    {s s' : σ} :
    handleAssertion env reg a s = (.ok (), s') ↔
      ExpectedOk env a.expectedOrigin ∧ AllowOk a.allowCredentials a.credential.rawId ∧
      ∃ cd s1 user rp ad,
        reg.getCredentialData a.credential.rawId s = (.ok (some cd), s1) ∧
        AssertionOk env a cd user rp ad ∧
        reg.registerAssertion ⟨a.credential, ad, user, rp⟩ s1 = (.ok none, s') := by
  rw [handleAssertion_ok_iff, expectedOk_iff]
  simp only [assertionPre_ok_iff]
  constructor
  · rintro ⟨al, cd, s1, r, ⟨h1, h2⟩, h3, h4, h5⟩
    obtain ⟨h6, h7⟩ := (assertionChecks_ok_iff h1).mp h4
    refine ⟨⟨al, h1⟩, h2, cd, s1, r.user, r.rp, r.authData, h3, h7, ?_⟩
    rw [← h6]
    exact h5
  · rintro ⟨⟨al, h1⟩, h2, cd, s1, user, rp, ad, h3, h4, h5⟩
    exact ⟨al, cd, s1, _, ⟨h1, h2⟩, h3, (assertionChecks_ok_iff h1).mpr ⟨rfl, h4⟩, h5⟩

/-- Acceptance of a registration, in terms of the specification. -/
theorem attestation_accepts {σ : Type} {env : Env} {reg : Registrar σ} {a : AttestationArgs}
    {s s' : σ} :
    handleAttestation env reg a s = (.ok (), s') ↔
      ExpectedOk env a.expectedOrigin ∧
      ∃ o raw, AttestationOk env a o raw ∧ o.attStmt = .none ∧
        reg.registerAttestation ⟨a.credential, o, .NONE, a.user, a.rp, none⟩ s = (.ok none, s') := by
  rw [handleAttestation_ok_iff]
  simp only [attestationChecks_ok_iff]
  constructor
  · rintro ⟨r, ⟨h1, ⟨raw, h2⟩, h3, e1, e2, e3, e4, e5⟩, h6⟩
    refine ⟨h1, r.att, raw, h2, h3, ?_⟩
    rw [← e1, ← e2, ← e3, ← e4, ← e5]
    exact h6
  · rintro ⟨h1, o, raw, h2, h3, h4⟩
    exact ⟨_, ⟨h1, ⟨raw, h2⟩, h3, rfl, rfl, rfl, rfl, rfl⟩, h4⟩

end WebAuthn
