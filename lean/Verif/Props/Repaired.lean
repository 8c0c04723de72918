import Verif.Model.Repaired
import Verif.Spec.Repaired
import Verif.Props.Keys
import Verif.Props.Attest
import Verif.Props.Origin

/-!
# The repaired variants have the properties that the code lacks (C18 - C20, C27, C35, C37)
-/

namespace WebAuthn.Props

open WebAuthn WebAuthn.Spec

/-! ## Registration -/

theorem attest_attObj_ok_iff {env : Env} {o : AttestationObject} {raw hash : Bytes}
    {t : AttestationType} {p : TrustedPath} :
    attest env o.attStmt (.attObj o) raw hash = .ok (t, p) ↔
      StatementShows env o.authData raw hash o.attStmt t p := by
  cases hs : o.attStmt with
  | none =>
    constructor
    · intro h; cases h; exact .none
    · intro h; cases h; rfl
  | fidoU2F sig x5c =>
    rw [C21_fido_u2f_exact]
    constructor
    · rintro ⟨cert, h, e⟩; cases e; exact .fidoU2F _ _ _ h
    · intro h; cases h with | fidoU2F _ _ cert h => exact ⟨cert, h, rfl⟩
  | androidKey alg sig x5c =>
    rw [C22_android_key_exact]
    constructor
    · rintro ⟨cert, h, e⟩; cases e; exact .androidKey _ _ _ _ h
    · intro h; cases h with | androidKey _ _ _ cert h => exact ⟨cert, h, rfl⟩
  | _ =>
    constructor
    · intro h; cases h
    · intro h; cases h

theorem repaired_checks_ok_iff {ids : Bool} {env : Env} {a : AttestationArgs}
    {r : AttestationRecord} :
    Repaired.attestationChecks ids env a = .ok r ↔
      ExpectedOk env a.expectedOrigin ∧
      ∃ raw cdj ob, a.credential.response = .attestation cdj ob ∧ AttestationOk env a r.att raw ∧
        (ids = true → RawIdAttests a.credential r.att.authData) ∧
        StatementShows env r.att.authData raw (env.sha256 cdj) r.att.attStmt r.attType
          r.trustedPath ∧
        r.credential = a.credential ∧ r.user = a.user ∧ r.rp = a.rp := by
  rw [expectedOk_iff]
  unfold Repaired.attestationChecks AttestationOk
  cases hr : a.credential.response with
  | assertion cdj raw sig handle =>
    simp only [bind_ok_iff, Response.attestationObject, reduceCtorEq, false_and, and_false,
      exists_const]
  | attestation cdj ob =>
    simp only [bind_ok_iff, Response.clientDataJSON, Response.attestationObject, Except.ok.injEq,
      exists_eq_left', Prod.exists, attest_attObj_ok_iff, pure_eq_ok, attestedOf_ok_iff,
      require_ok_iff]
    constructor
    · rintro ⟨allowed, ha, _, h3, o, raw, h4, _, h5, acd, h6, _, h8, t, p, h7, rfl⟩
      rw [parseAttestationObject_ok_iff] at h4
      have had : AuthDataOf env raw o.authData := by obtain ⟨_, _, _, _, _, h, _⟩ := h4; exact h
      refine ⟨⟨allowed, ha⟩, raw, cdj, ob, rfl, ⟨cdj, ob, rfl, (checkClientData_ok_iff ha).mp h3, h4,
        (checkAuthData_ok_iff had).mp h5, by simp [h6]⟩, fun hi => ⟨acd, h6, ?_⟩, h7, rfl, rfl, rfl⟩
      rw [hi] at h8
      simpa using h8
    · rintro ⟨⟨allowed, ha⟩, raw, cdj', ob', he, ⟨cdj'', ob'', he', h3, h4, h5, h6⟩, hid, h7, e1, e2,
        e3⟩
      cases he
      cases he'
      obtain ⟨acd, h6⟩ := Option.ne_none_iff_exists'.mp h6
      refine ⟨allowed, ha, (), (checkClientData_ok_iff ha).mpr h3, r.att, raw,
        parseAttestationObject_ok_iff.mpr h4, (), (checkAuthData_ok_iff h5.1).mpr h5, acd, h6,
        (), ?_, _, _, h7, ?_⟩
      · cases ids with
        | false => rfl
        | true =>
          obtain ⟨acd', h8, h9⟩ := hid rfl
          rw [h6] at h8
          cases h8
          simp [h9]
      · cases r
        simp only at e1 e2 e3
        rw [e1, e2, e3]

/-- C18 in full, for the repaired backend: registration succeeds exactly if the
response is valid, its statement is valid in a supported format, the raw id is the
attested one if this is compared, and the registrar accepts what it is given,
which is the attestation type and trust path that the statement shows. -/
theorem C18_repaired_accepts_exactly {σ : Type} {env : Env} {reg : Registrar σ} {ids : Bool}
    {a : AttestationArgs} {s s' : σ} :
    Repaired.handleAttestation ids env reg a s = (.ok (), s') ↔
      ExpectedOk env a.expectedOrigin ∧
      ∃ o raw cdj ob t p, a.credential.response = .attestation cdj ob ∧
        AttestationOk env a o raw ∧ (ids = true → RawIdAttests a.credential o.authData) ∧
        StatementShows env o.authData raw (env.sha256 cdj) o.attStmt t p ∧
        reg.registerAttestation ⟨a.credential, o, t, a.user, a.rp, p⟩ s = (.ok none, s') := by
  have key : Repaired.handleAttestation ids env reg a s = (.ok (), s') ↔
      ∃ r, Repaired.attestationChecks ids env a = .ok r ∧
        reg.registerAttestation r s = (.ok none, s') := by
    unfold Repaired.handleAttestation
    cases h : Repaired.attestationChecks ids env a with
    | error e =>
      simp only [Prod.mk.injEq, finalise_ok_iff, reduceCtorEq, false_and, exists_false]
    | ok r =>
      simp only [Except.ok.injEq, exists_eq_left', Prod.mk.injEq, finalise_ok_iff,
        checkWrite_ok_iff]
      rw [Prod.ext_iff]
  rw [key]
  simp only [repaired_checks_ok_iff]
  constructor
  · rintro ⟨r, ⟨h1, raw, cdj, ob, h2, h3, h4, h5, e1, e2, e3⟩, h6⟩
    refine ⟨h1, r.att, raw, cdj, ob, _, _, h2, h3, h4, h5, ?_⟩
    rw [← e1, ← e2, ← e3]
    exact h6
  · rintro ⟨h1, o, raw, cdj, ob, t, p, h2, h3, h4, h5, h6⟩
    exact ⟨_, ⟨h1, raw, cdj, ob, h2, h3, h4, h5, rfl, rfl, rfl⟩, h6⟩

/-- C19 in full, for the repaired backend: every valid statement of a supported
format can be registered. -/
theorem C19_repaired_supported_formats {env : Env} {σ : Type} {reg : Registrar σ}
    {a : AttestationArgs} {s : σ} {o : AttestationObject} {raw cdj ob : Bytes}
    (h1 : ExpectedOk env a.expectedOrigin) (h2 : a.credential.response = .attestation cdj ob)
    (h3 : AttestationOk env a o raw) (h4 : StatementOk env o.attStmt o.authData raw (env.sha256 cdj))
    (h5 : ∀ r, ∃ s', reg.registerAttestation r s = (.ok none, s')) :
    ∃ s', Repaired.handleAttestation false env reg a s = (.ok (), s') := by
  have : ∃ t p, StatementShows env o.authData raw (env.sha256 cdj) o.attStmt t p := by
    rcases h4 with h | ⟨sig, x5c, cert, h, h'⟩ | ⟨alg, sig, x5c, cert, h, h'⟩ <;> rw [h]
    · exact ⟨_, _, .none⟩
    · exact ⟨_, _, .fidoU2F _ _ _ h'⟩
    · exact ⟨_, _, .androidKey _ _ _ _ h'⟩
  obtain ⟨t, p, h6⟩ := this
  obtain ⟨s', h7⟩ := h5 ⟨a.credential, o, t, a.user, a.rp, p⟩
  exact ⟨s', C18_repaired_accepts_exactly.mpr
    ⟨h1, o, raw, cdj, ob, t, p, h2, h3, by simp, h6, h7⟩⟩

/-- The FIDO U2F registration that the code refuses (`C19_supported_formats_refuted`)
is accepted, and the registrar gets the certificate. -/
example : Repaired.handleAttestation true Demo.env
    (⟨fun r _ => (.ok none, some (r.attType, r.trustedPath)), fun _ s => (.ok none, s),
      fun _ s => (.ok none, s)⟩ : Registrar (Option (AttestationType × TrustedPath)))
    U2F.args none = (.ok (), some (.BASIC, some [U2F.cert])) :=
  C18_repaired_accepts_exactly.mpr ⟨Demo.expected_ok, U2F.att, Demo.regRaw, Demo.regCdj, U2F.obj,
    .BASIC, some [U2F.cert], rfl, U2F.response_ok, fun _ => ⟨Demo.attested, rfl, rfl⟩,
    .fidoU2F _ _ _ U2F.valid, rfl⟩

/-- C20 in full, for the repaired backend with the comparison. -/
theorem C20_repaired_raw_id_attested {σ : Type} {env : Env} {reg : Registrar σ}
    {a : AttestationArgs} {s s' : σ} {log : List Call}
    (h : Repaired.handleAttestation true env (recording reg) a (s, []) = (.ok (), s', log)) :
    ∃ r acd, log = [.attestation r] ∧ r.credential = a.credential ∧
      r.att.authData.attested = some acd ∧ acd.credentialId = r.credential.rawId := by
  obtain ⟨-, o, raw, cdj, ob, t, p, h1, -, h2, -, h3⟩ := C18_repaired_accepts_exactly.mp h
  obtain ⟨acd, h4, h5⟩ := h2 rfl
  simp only [recording, Prod.mk.injEq, List.nil_append] at h3
  exact ⟨_, acd, h3.2.2.symm, rfl, h4, h5.symm⟩

/-- A registration that the code accepts is accepted after the repair of the call
of `attest`, with the same effect. -/
theorem C19_repaired_conservative {σ : Type} {env : Env} {reg : Registrar σ}
    {a : AttestationArgs} {s s' : σ} (h : handleAttestation env reg a s = (.ok (), s')) :
    Repaired.handleAttestation false env reg a s = (.ok (), s') := by
  obtain ⟨h1, o, raw, h2, h3, h4⟩ := attestation_accepts.mp h
  obtain ⟨cdj, ob, h5, -⟩ := id h2
  refine C18_repaired_accepts_exactly.mpr ⟨h1, o, raw, cdj, ob, .NONE, none, h5, h2, by simp, ?_, h4⟩
  rw [h3]
  exact .none

example : Repaired.handleAttestation false Demo.env Demo.registrar Demo.regArgs [] =
    (.ok (), [(Demo.credId, Demo.stored 1)]) :=
  C19_repaired_conservative (Demo.registration_ok [] rfl)

/-! ## Stored keys -/

theorem repaired_baseDict_ok {b : KeyBase} {alg : NV Alg} (ha : b.alg = some alg)
    (hops : b.keyOps ≠ some []) :
    ∃ d, Repaired.buildBaseCoseDictionary b = .ok d ∧
      (∀ t : Dict, (∀ kv ∈ t, ∃ n : Int, kv.1 = .int n ∧ n < 0) → KeyMembers (d ++ t) b) ∧
      (∀ n : Int, n < 0 → ∀ t : Dict, (d ++ t).get? (.int n) = t.get? (.int n)) ∧
      (∃ ks : List Int, d.map Prod.fst = ks.map .int ∧ ks.Nodup ∧ ∀ k ∈ ks, 0 < k) ∧
      (∀ kv ∈ d, Plain kv.2) := by
  obtain ⟨kty, kid, al, ops, iv⟩ := b
  simp only at ha hops
  subst ha
  have pk := plain_denotes (denotes_kty kty)
  have pa := plain_denotes (denotes_alg alg)
  have po : ∀ l : List (NV KeyOp),
      Plain (.list (l.map (nvValue KeyOp.nameTable KeyOp.valueTable))) := by
    intro l
    refine .list _ fun v hv => ?_
    obtain ⟨m, -, rfl⟩ := List.mem_map.mp hv
    exact plain_denotes (denotes_op m)
  have hneg : ∀ (t : Dict), (∀ kv ∈ t, ∃ n : Int, kv.1 = .int n ∧ n < 0) → ∀ k : Int, 0 < k →
      Dict.get? t (.int k) = none := by
    intro t ht k hk
    rw [← absent_iff]
    intro kv hkv h
    obtain ⟨n, hn, hn'⟩ := ht kv hkv
    rw [hn] at h
    cases h
    omega
  have alg' : ∀ d : Dict, d.get? (.int 3) = some (nvValue Alg.nameTable Alg.valueTable alg) →
      ∃ alg' v, some alg = some alg' ∧ Lookup d (.int 3) v ∧ Denotes algCode v alg' :=
    fun d h => ⟨alg, _, rfl, lookup_iff.mpr h, denotes_alg alg⟩
  have kty' : ∀ d : Dict, d.get? (.int 1) = some (nvValue KeyType.nameTable KeyType.valueTable kty) →
      ∃ v, Lookup d (.int 1) v ∧ Denotes ktyCode v kty :=
    fun d h => ⟨_, lookup_iff.mpr h, denotes_kty kty⟩
  cases kid <;> cases ops <;> cases iv
  all_goals refine ⟨_, rfl, fun t ht => ⟨kty' _ rfl, ?_, alg' _ rfl, ?_, ?_⟩, ?_, ?_, ?_⟩
  all_goals first
    | exact lookup_iff.mpr rfl
    | exact Or.inl (absent_iff.mpr (hneg t ht _ (by decide)))
    | exact Or.inr (lookup_iff.mpr rfl)
    | exact ⟨by simpa using hops, _, Or.inl (lookup_iff.mpr rfl), forall₂_ops _⟩
    | exact ⟨[1, 3], rfl, by decide, by decide⟩
    | exact ⟨[1, 3, 4], rfl, by decide, by decide⟩
    | exact ⟨[1, 3, 5], rfl, by decide, by decide⟩
    | exact ⟨[1, 2, 3], rfl, by decide, by decide⟩
    | exact ⟨[1, 2, 3, 4], rfl, by decide, by decide⟩
    | exact ⟨[1, 2, 3, 5], rfl, by decide, by decide⟩
    | exact ⟨[1, 3, 4, 5], rfl, by decide, by decide⟩
    | exact ⟨[1, 2, 3, 4, 5], rfl, by decide, by decide⟩
    | (intro kv hkv
       simp only [List.cons_append, List.nil_append, List.mem_cons, List.not_mem_nil,
         or_false] at hkv
       rcases hkv with rfl | rfl | rfl | rfl | rfl <;>
         first | exact pk | exact pa | exact po _ | exact .bytes _)
    | (intro n hn t
       have h1 : n ≠ 1 := by omega
       have h2 : n ≠ 2 := by omega
       have h3 : n ≠ 3 := by omega
       have h4 : n ≠ 4 := by omega
       have h5 : n ≠ 5 := by omega
       simp [Dict.get?, PyVal.isKey, PyVal.num?, h1.symm, h2.symm, h3.symm, h4.symm, h5.symm])

/-- The dictionary that the repaired `cose_key` builds denotes the key. -/
theorem repaired_coseKeyDict_ok {k : CPK} (hk : ∃ d, CoseKeyOf d k) :
    ∃ d, Repaired.coseKeyDict k = .ok d ∧ CoseKeyOf d k ∧ Plain (.dict d) := by
  obtain ⟨d0, h0⟩ := hk
  cases k with
  | base b => exact absurd h0 id
  | ec2 b x y crv =>
    obtain ⟨hb, h1, -, h3, -, -, h6, h7⟩ := h0
    obtain ⟨⟨alg, ha⟩, hops⟩ := keyMembers_base hb
    obtain ⟨d, hd, hm, hg, ⟨ks, hks, hn, hpos⟩, hv⟩ := repaired_baseDict_ok ha hops
    refine ⟨_, by simp only [Repaired.coseKeyDict, hd]; rfl, ⟨hm _ ?_, h1, ⟨_, lookup_iff.mpr ?_,
      denotes_crv crv⟩, h3, lookup_iff.mpr ?_, lookup_iff.mpr ?_, h6, h7⟩, ?_⟩
    · simp
    · rw [hg _ (by decide)]; rfl
    · rw [hg _ (by decide)]; rfl
    · rw [hg _ (by decide)]; rfl
    · refine plain_intDict (ks ++ [-1, -2, -3]) (by simp [hks]) ?_ ?_
      · rw [List.nodup_append]
        refine ⟨hn, by decide, fun a ha b hb => ?_⟩
        have := hpos a ha
        simp at hb
        omega
      · intro kv hkv
        simp only [List.mem_append, List.mem_cons, List.not_mem_nil, or_false] at hkv
        rcases hkv with h | rfl | rfl | rfl
        · exact hv kv h
        · exact plain_denotes (denotes_crv crv)
        · exact .bytes _
        · exact .bytes _
  | okp b crv x =>
    obtain ⟨hb, h1, -, h3, -, h6⟩ := h0
    obtain ⟨⟨alg, ha⟩, hops⟩ := keyMembers_base hb
    obtain ⟨d, hd, hm, hg, ⟨ks, hks, hn, hpos⟩, hv⟩ := repaired_baseDict_ok ha hops
    refine ⟨_, by simp only [Repaired.coseKeyDict, hd]; rfl, ⟨hm _ ?_, h1, ⟨_, lookup_iff.mpr ?_,
      denotes_crv crv⟩, h3, lookup_iff.mpr ?_, h6⟩, ?_⟩
    · simp
    · rw [hg _ (by decide)]; rfl
    · rw [hg _ (by decide)]; rfl
    · refine plain_intDict (ks ++ [-1, -2]) (by simp [hks]) ?_ ?_
      · rw [List.nodup_append]
        refine ⟨hn, by decide, fun a ha b hb => ?_⟩
        have := hpos a ha
        simp at hb
        omega
      · intro kv hkv
        simp only [List.mem_append, List.mem_cons, List.not_mem_nil, or_false] at hkv
        rcases hkv with h | rfl | rfl
        · exact hv kv h
        · exact plain_denotes (denotes_crv crv)
        · exact .bytes _

/-- C27 in full, for the repaired `cose_key`. -/
theorem C27_repaired_stored_keys_survive {env : Env} (codec : CodecLaws env) {k : CPK} {b : Bytes}
    (hk : ∃ d, parseCoseKeyDict d = .ok k) (h : Repaired.coseKey env k = .ok b) :
    parseCoseKeyBytes env b = .ok k := by
  obtain ⟨d, hd, hof, hp⟩ := repaired_coseKeyDict_ok (hk.imp fun _ => parseCoseKeyDict_ok_iff.mp)
  unfold Repaired.coseKey at h
  rw [hd] at h
  have := codec.roundTrip hp h []
  rw [List.append_nil] at this
  rw [C28_cose_key_bytes]
  exact ⟨d, [], this, hof⟩

/-- The key that the code does not keep (`C27_stored_keys_survive_refuted`). -/
example : ∃ b, Repaired.coseKey Demo.env Iv.key = .ok b ∧
    parseCoseKeyBytes Demo.env b = .ok Iv.key :=
  ⟨_, rfl, C27_repaired_stored_keys_survive Demo.codec ⟨_, Iv.parses⟩ rfl⟩

/-! ## Trailing data -/

theorem repaired_cborLoads_ok_iff {env : Env} {b : Bytes} {v : PyVal} :
    Repaired.cborLoads env b = .ok v ↔ env.cborLoad b = .ok (v, []) := by
  unfold Repaired.cborLoads
  cases h : env.cborLoad b with
  | error e => simp [bind, Except.bind]
  | ok r =>
    obtain ⟨w, rest⟩ := r
    cases rest <;> simp [bind, Except.bind, pure, Except.pure]

/-- C35 in full, for parsers that load with the repaired `cbor2.loads`: bytes
after the item are refused with `DecodingError`, and input without such bytes is
parsed as before. -/
theorem C35_repaired_no_trailing_data {env : Env} (stream : StreamLaws env) :
    (∀ b k, Repaired.parseCoseKeyBytes env b = .ok k →
      parseCoseKeyBytes env b = .ok k ∧
      ∀ t, t ≠ [] → Repaired.parseCoseKeyBytes env (b ++ t) = .error (.lib .decoding)) ∧
    (∀ b r, Repaired.parseAttestationObject env b = .ok r →
      parseAttestationObject env b = .ok r ∧
      ∀ t, t ≠ [] → Repaired.parseAttestationObject env (b ++ t) = .error (.lib .decoding)) := by
  have key : ∀ {b : Bytes} {v : PyVal}, env.cborLoad b = .ok (v, []) → ∀ t, t ≠ [] →
      catching (Repaired.cborLoads env (b ++ t)) Exc.isCborDecodeError .decoding =
        .error (.lib .decoding) := by
    intro b v h t ht
    have h' := stream.extend (used := b) (rest := []) (by rw [List.append_nil]; exact h) t
    simp only [Repaired.cborLoads, h', bind, Except.bind]
    cases t with
    | nil => exact absurd rfl ht
    | cons x l => rfl
  refine ⟨fun b k h => ?_, fun b r h => ?_⟩
  · unfold Repaired.parseCoseKeyBytes at h
    obtain ⟨v, hv, h⟩ := bind_ok_iff.mp h
    rw [catching_ok_iff, repaired_cborLoads_ok_iff] at hv
    refine ⟨?_, fun t ht => ?_⟩
    · have hv' : catching (env.cborLoads b) Exc.isCborDecodeError .decoding = .ok v :=
        catching_ok_iff.mpr (cborLoads_ok_iff.mpr ⟨_, hv⟩)
      unfold parseCoseKeyBytes
      rw [hv']
      exact h
    · unfold Repaired.parseCoseKeyBytes
      rw [key hv t ht]
      rfl
  · unfold Repaired.parseAttestationObject at h
    obtain ⟨v, hv, h⟩ := bind_ok_iff.mp h
    rw [catching_ok_iff, repaired_cborLoads_ok_iff] at hv
    refine ⟨h, fun t ht => ?_⟩
    unfold Repaired.parseAttestationObject
    rw [key hv t ht]
    rfl

/-- The key of the demonstration is parsed, and not with a byte more. -/
example : Repaired.parseCoseKeyBytes Demo.env Demo.keyBytes = .ok Demo.key ∧
    Repaired.parseCoseKeyBytes Demo.env (Demo.keyBytes ++ [0]) = .error (.lib .decoding) := by
  obtain ⟨d, h, h', -⟩ := encodedKey_of Demo.codec (rest := []) Demo.keyBytes_enc
  rw [List.append_nil] at h
  have hl := repaired_cborLoads_ok_iff.mpr h
  have hk : Repaired.parseCoseKeyBytes Demo.env Demo.keyBytes = .ok Demo.key := by
    simp only [Repaired.parseCoseKeyBytes, hl, catching, bind, Except.bind, PyVal.asDict?]
    exact parseCoseKeyDict_ok_iff.mpr h'
  exact ⟨hk, ((C35_repaired_no_trailing_data Demo.stream).1 _ _ hk).2 [0] (by simp)⟩

/-! ## Origins -/

/-- The text `s` is a serialisation `scheme://host[:port]` of the web origin with
this scheme, host (in lower case) and port. -/
def DenotesOrigin (s scheme : String) (host : List Char) (p : Nat) : Prop :=
  ∃ h port dflt, s.toList = scheme.toList ++ "://".toList ++ h ++ port ∧ WebScheme scheme dflt ∧
    h ≠ [] ∧ (∀ c ∈ h, HostChar c ∧ c ≠ '%') ∧ LowerCase h host ∧
    (port = [] ∧ p = dflt ∨
     ∃ digits, digits ≠ [] ∧ port = ':' :: digits ∧ Decimal digits p ∧ p ≤ 65535)

theorem repaired_parseOrigin {env : Env} {s scheme : String} {host : List Char} {p : Nat}
    (h : DenotesOrigin s scheme host p) :
    Repaired.parseOrigin env s = .ok ⟨scheme, String.ofList host, p⟩ := by
  obtain ⟨h, port, dflt, hs, hw, hne, hc, hl, hp⟩ := h
  have hser : Serialises s scheme (h ++ port) p := by
    refine ⟨by rw [hs]; simp, h, dflt, hw, hne, fun c hm => (hc c hm).1, ?_⟩
    rcases hp with ⟨rfl, rfl⟩ | ⟨digits, h1, rfl, h2, h3⟩
    · exact Or.inl ⟨by simp, rfl⟩
    · exact Or.inr ⟨digits, h1, rfl, h2, h3⟩
  have hno : ∀ d ∈ "/?#:@[]".toList, d ∉ h := fun d hd => not_mem_of_ne fun c hm => hostChar_ne (hc c hm).1 hd
  have hpn : ∀ d : Char, (d.toNat < 48 ∨ 57 < d.toNat) → d ≠ ':' → d ∉ port := by
    intro d hd hne hm
    rcases hp with ⟨rfl, -⟩ | ⟨digits, -, rfl, h2, -⟩
    · simp at hm
    · rcases List.mem_cons.mp hm with rfl | hm
      · exact hne rfl
      · exact digit_ne (decimal_digits h2 d hm) hd rfl
  have hat : '@' ∉ h ++ port := by
    simp only [List.mem_append, not_or]
    exact ⟨hno _ (by decide), hpn _ (by decide) (by decide)⟩
  have hlb : '[' ∉ h ++ port := by
    simp only [List.mem_append, not_or]
    exact ⟨hno _ (by decide), hpn _ (by decide) (by decide)⟩
  have hpart : (partitionAt ':' (h ++ port)).1 = h := by
    rcases hp with ⟨rfl, -⟩ | ⟨digits, -, rfl, -, -⟩
    · rw [List.append_nil, partitionAt_of_not_mem (hno _ (by decide))]
    · rw [partitionAt_append (hno _ (by decide))]
  have hpct : '%' ∉ h := fun hm => (hc _ hm).2 rfl
  have hhost : Repaired.urlHostname (h ++ port) = host := by
    unfold Repaired.urlHostname
    simp only [afterLastAt_iff.mpr ⟨hat, Or.inl rfl⟩, partitionAt_of_not_mem hlb, hpart,
      partitionAt_of_not_mem hpct]
    rw [← hl]
    refine List.map_congr_left fun c _ => ?_
    simp [toLower, isUpper]
  unfold Repaired.parseOrigin
  rw [C36_serialised_origins hser, ok_bind, String.toList_ofList, hhost]
  rfl

/-- C37 for the repaired function: two serialised origins are equal exactly if
scheme, host and port are the same; letter case of the host and an explicit
default port make no difference. -/
theorem C37_repaired_equivalent_origins {env : Env} {s s' scheme scheme' : String}
    {host host' : List Char} {p p' : Nat} (h : DenotesOrigin s scheme host p)
    (h' : DenotesOrigin s' scheme' host' p') :
    Repaired.parseOrigin env s = Repaired.parseOrigin env s' ↔
      scheme = scheme' ∧ host = host' ∧ p = p' := by
  rw [repaired_parseOrigin h, repaired_parseOrigin h']
  simp only [Except.ok.injEq, Origin.mk.injEq]
  constructor
  · rintro ⟨h1, h2, h3⟩
    exact ⟨h1, by simpa using congrArg String.toList h2, h3⟩
  · rintro ⟨h1, h2, h3⟩
    exact ⟨h1, by rw [h2], h3⟩

example (env : Env) : Repaired.parseOrigin env "https://Example.com" =
    Repaired.parseOrigin env "https://example.com:443" := by
  refine (C37_repaired_equivalent_origins (scheme := "https") (scheme' := "https")
    (host := "example.com".toList) (host' := "example.com".toList) (p := 443) (p' := 443)
    ⟨"Example.com".toList, [], 443, by decide, .https, by decide, by unfold HostChar; decide,
      by unfold LowerCase; decide, Or.inl ⟨rfl, rfl⟩⟩
    ⟨"example.com".toList, ":443".toList, 443, by decide, .https, by decide, by unfold HostChar; decide,
      by unfold LowerCase; decide, Or.inr ⟨"443".toList, by decide, by decide,
        by rw [decimal_iff]; decide, by decide⟩⟩).mpr ⟨rfl, rfl, rfl⟩

end WebAuthn.Props
