import Verif.Lemmas.Errors
import Verif.Lemmas.Credential
import Verif.Props.Demo

/-!
# Wire formats (C24, C26, C28-C35)
-/

namespace WebAuthn.Props

open WebAuthn WebAuthn.Spec

/-! ## Authenticator data -/

/-- C24: `parse_authenticator_data` succeeds exactly on authenticator data and
returns what it denotes. -/
theorem C24_layout_exact {env : Env} {raw : Bytes} {ad : AuthData} :
    parseAuthenticatorData env raw = .ok ad ↔ AuthDataOf env raw ad :=
  parseAuthenticatorData_ok_iff

/-- C24, by offsets.  `used` are the bytes of the CBOR items. -/
theorem C24_layout_offsets {env : Env} (stream : StreamLaws env) {raw : Bytes} {ad : AuthData}
    (h : parseAuthenticatorData env raw = .ok ad) :
    37 ≤ raw.length ∧ ad.rpIdHash = raw.take 32 ∧
    (∃ f, raw[32]? = some f ∧ ad.flags = f.toNat ∧
      (ad.attested ≠ none ↔ f.toNat.testBit 6 = true) ∧
      (ad.extensions ≠ none ↔ f.toNat.testBit 7 = true)) ∧
    BigEndian ((raw.drop 33).take 4) ad.signCount ∧
    ∃ att ext, raw.drop 37 = att ++ ext ∧
      (match ad.attested with
        | none => att = []
        | some a => ∃ len item d k, att = a.aaguid ++ len ++ a.credentialId ++ item ∧
            a.aaguid.length = 16 ∧ len.length = 2 ∧ BigEndian len a.credentialId.length ∧
            a.credentialIdLength = a.credentialId.length ∧
            env.cborLoad item = .ok (.dict d, []) ∧ item ≠ [] ∧
            a.credentialPublicKey = some k ∧ CoseKeyOf d k) ∧
      (match ad.extensions with
        | none => ext = []
        | some e => ∃ d, env.cborLoad ext = .ok (.dict d, []) ∧ ExtensionsOf d e) := by
  rw [parseAuthenticatorData_ok_iff] at h
  obtain ⟨flags, count, body, mid, rfl, h1, h2, h3, h4, h5, h6⟩ := h
  refine ⟨by simp [h1, h3]; omega, ?_, ⟨flags, ?_, h2, ?_, ?_⟩, ?_, ?_⟩
  · rw [List.append_assoc, List.append_assoc, ← h1, List.take_left]
  · rw [List.append_assoc, List.append_assoc, ← h1]
    simp
  · cases ha : ad.attested <;> rw [ha] at h5 <;> simp [h5.1]
  · cases he : ad.extensions <;> rw [he] at h6 <;> simp [h6.1]
  · rw [show 33 = (ad.rpIdHash ++ [flags]).length by simp [h1],
      List.append_assoc (ad.rpIdHash ++ [flags]), List.drop_left, ← h3, List.take_left]
    exact h4
  · rw [show 37 = (ad.rpIdHash ++ [flags] ++ count).length by simp [h1, h3], List.drop_left]
    have hext : match ad.extensions with
        | none => mid = []
        | some e => ∃ d, env.cborLoad mid = .ok (.dict d, []) ∧ ExtensionsOf d e := by
      cases he : ad.extensions <;> rw [he] at h6
      · exact h6.2
      · exact h6.2
    cases ha : ad.attested with
    | none =>
      rw [ha] at h5
      exact ⟨[], mid, h5.2, rfl, hext⟩
    | some a =>
      rw [ha] at h5
      obtain ⟨-, len, tail, d, k, rfl, e1, e2, e3, e4, e5, e6, e7, -⟩ := h5
      obtain ⟨used, hu, rfl⟩ := stream.split e5
      refine ⟨a.aaguid ++ len ++ a.credentialId ++ used, mid, by simp, ⟨len, used, d, k, rfl, e1, e2,
        e3, e4, ?_, hu, e6, e7⟩, hext⟩
      have := stream.extend e5 []
      rwa [List.append_nil] at this

theorem attested_extend {env : Env} (stream : StreamLaws env) {b rest : Bytes}
    {a : AttestedCredentialData} (h : AttestedOf env b rest a) (t : Bytes) :
    AttestedOf env (b ++ t) (rest ++ t) a := by
  obtain ⟨len, tail, d, k, rfl, h1, h2, h3, h4, h5, h6⟩ := h
  obtain ⟨used, -, rfl⟩ := stream.split h5
  have := stream.extend h5 (rest ++ t)
  exact ⟨len, used ++ (rest ++ t), d, k, by simp, h1, h2, h3, h4, this, h6⟩

theorem extData_extend {env : Env} (stream : StreamLaws env) {b rest : Bytes}
    {e : Extensions} (h : ExtDataOf env b rest e) (t : Bytes) :
    ExtDataOf env (b ++ t) (rest ++ t) e := by
  obtain ⟨d, h1, h2⟩ := h
  obtain ⟨used, -, rfl⟩ := stream.split h1
  have := stream.extend h1 (rest ++ t)
  exact ⟨d, by rw [List.append_assoc]; exact this, h2⟩

theorem block_extend {α : Type} {flags : UInt8} {i : Nat} {R : Bytes → Bytes → α → Prop}
    (hR : ∀ b rest a, R b rest a → ∀ t, R (b ++ t) (rest ++ t) a)
    {b rest : Bytes} {o : Option α} (h : Block flags i R b rest o) (t : Bytes) :
    Block flags i R (b ++ t) (rest ++ t) o := by
  cases o with
  | none => exact ⟨h.1, by rw [h.2]⟩
  | some a => exact ⟨h.1, hR _ _ _ h.2 t⟩

theorem block_unique {α : Type} {flags : UInt8} {i : Nat} {R : Bytes → Bytes → α → Prop}
    (hR : ∀ b r r' a a', R b r a → R b r' a' → r = r' ∧ a = a')
    {b r r' : Bytes} {o o' : Option α} (h : Block flags i R b r o) (h' : Block flags i R b r' o') :
    r = r' ∧ o = o' := by
  cases o <;> cases o'
  · exact ⟨h.2.symm.trans h'.2, rfl⟩
  · exact absurd (h.1.symm.trans h'.1) (by simp)
  · exact absurd (h.1.symm.trans h'.1) (by simp)
  · obtain ⟨h1, h2⟩ := hR _ _ _ _ _ h.2 h'.2
    exact ⟨h1, congrArg _ h2⟩

theorem attested_unique {env : Env} (b r r' : Bytes) (a a' : AttestedCredentialData)
    (h : AttestedOf env b r a) (h' : AttestedOf env b r' a') : r = r' ∧ a = a' := by
  rw [← parseAttested_ok_iff] at h h'
  rw [h] at h'
  simp only [Except.ok.injEq, Prod.mk.injEq] at h'
  exact ⟨h'.2, h'.1⟩

theorem extData_unique {env : Env} (b r r' : Bytes) (a a' : Extensions)
    (h : ExtDataOf env b r a) (h' : ExtDataOf env b r' a') : r = r' ∧ a = a' := by
  rw [← parseExtData_ok_iff] at h h'
  rw [h] at h'
  simp only [Except.ok.injEq, Prod.mk.injEq] at h'
  exact ⟨h'.2, h'.1⟩

/-- No authenticator data is a proper prefix of another. -/
theorem authData_prefix_free {env : Env} (stream : StreamLaws env) {raw t : Bytes}
    {ad ad' : AuthData} (h : AuthDataOf env raw ad) (h' : AuthDataOf env (raw ++ t) ad') :
    t = [] := by
  obtain ⟨flags, count, body, mid, rfl, h1, h2, h3, h4, h5, h6⟩ := h
  obtain ⟨flags', count', body', mid', e, g1, g2, g3, g4, g5, g6⟩ := h'
  have e : ad.rpIdHash ++ ([flags] ++ (count ++ (body ++ t))) =
      ad'.rpIdHash ++ ([flags'] ++ (count' ++ body')) := by simpa using e
  obtain ⟨-, e1⟩ := List.append_inj e (by rw [h1, g1])
  obtain ⟨ef, e2⟩ := List.append_inj e1 rfl
  obtain ⟨-, e3⟩ := List.append_inj e2 (by rw [h3, g3])
  obtain rfl : flags = flags' := by simpa using ef
  rw [← e3] at g5
  have k1 := block_extend (fun b r a h => attested_extend stream h) h5 t
  obtain ⟨rfl, -⟩ := block_unique attested_unique k1 g5
  have k2 := block_extend (fun b r a h => extData_extend stream h) h6 t
  obtain ⟨k, -⟩ := block_unique extData_unique k2 g6
  simpa using k

theorem error_of_not_ok {α : Type} {m : Py α} (h : ∀ a, m ≠ .ok a) : ∃ e, m = .error e := by
  cases m with
  | error e => exact ⟨e, rfl⟩
  | ok a => exact absurd rfl (h a)

/-- C26: input shorter than 37 bytes is refused. -/
theorem C26_short {env : Env} {raw : Bytes} (h : raw.length < 37) :
    parseAuthenticatorData env raw = .error (.lib .parser) := by
  unfold parseAuthenticatorData
  have : require (decide (37 ≤ raw.length)) .parser = .error (.lib .parser) := by
    rw [require_error_iff]
    exact ⟨by simp; omega, rfl⟩
  rw [this]
  rfl

/-- C26: extra bytes after accepted authenticator data are refused. -/
theorem C26_padded {env : Env} (stream : StreamLaws env) {raw t : Bytes} {ad : AuthData}
    (h : parseAuthenticatorData env raw = .ok ad) (ht : t ≠ []) :
    ∃ e, parseAuthenticatorData env (raw ++ t) = .error e := by
  refine error_of_not_ok fun ad' h' => ht ?_
  rw [parseAuthenticatorData_ok_iff] at h h'
  exact authData_prefix_free stream h h'

/-- C26: every proper prefix of accepted authenticator data is refused, with or
without the two flags. -/
theorem C26_truncated {env : Env} (stream : StreamLaws env) {raw p t : Bytes} {ad : AuthData}
    (h : parseAuthenticatorData env raw = .ok ad) (hp : raw = p ++ t) (ht : t ≠ []) :
    ∃ e, parseAuthenticatorData env p = .error e := by
  refine error_of_not_ok fun ad' h' => ht ?_
  subst hp
  rw [parseAuthenticatorData_ok_iff] at h h'
  exact authData_prefix_free stream h' h

/-- C29: keys out of `parse_authenticator_data` have an algorithm and a curve of
the family of their class. -/
theorem C29_attested_key_consistent {env : Env} {raw : Bytes} {ad : AuthData}
    {a : AttestedCredentialData} (h : parseAuthenticatorData env raw = .ok ad)
    (ha : ad.attested = some a) :
    ∃ k, a.credentialPublicKey = some k ∧ KeyConsistent k := by
  rw [parseAuthenticatorData_ok_iff] at h
  obtain ⟨flags, count, body, mid, -, -, -, -, -, h5, -⟩ := h
  rw [ha] at h5
  obtain ⟨-, len, tail, d, k, -, -, -, -, -, -, e6, -, e8⟩ := h5
  exact ⟨k, e6, e8⟩

/-! ## COSE keys -/

/-- C28: `parse_cose_key` on a dictionary succeeds exactly on COSE keys (curve
and kty of the family, coordinates of the length of the curve, a supported
algorithm, optional members as present) and refuses everything else with
`ParserError`. -/
theorem C28_cose_key_exact {d : Dict} :
    (∀ k, parseCoseKeyDict d = .ok k ↔ CoseKeyOf d k) ∧
    ((∀ k, ¬ CoseKeyOf d k) → parseCoseKeyDict d = .error (.lib .parser)) := by
  refine ⟨fun k => parseCoseKeyDict_ok_iff, fun h => ?_⟩
  obtain ⟨e, he⟩ := error_of_not_ok fun k hk => h k (parseCoseKeyDict_ok_iff.mp hk)
  rw [he, raises_parseCoseKeyDict d e he]

/-- C28 on bytes. -/
theorem C28_cose_key_bytes {env : Env} {b : Bytes} {k : CPK} :
    parseCoseKeyBytes env b = .ok k ↔
      ∃ d rest, env.cborLoad b = .ok (.dict d, rest) ∧ CoseKeyOf d k := by
  unfold parseCoseKeyBytes
  simp only [bind_ok_iff, catching_ok_iff, cborLoads_ok_iff]
  constructor
  · rintro ⟨v, ⟨rest, hv⟩, h⟩
    cases hd : v.asDict? with
    | none => simp [hd, raise] at h
    | some d =>
      rw [hd] at h
      rw [PyVal.asDict?_eq] at hd
      subst hd
      exact ⟨d, rest, hv, parseCoseKeyDict_ok_iff.mp h⟩
  · rintro ⟨d, rest, hv, h⟩
    exact ⟨.dict d, ⟨rest, hv⟩, parseCoseKeyDict_ok_iff.mpr h⟩

/-- C28 spelled out: what a caller can rely on. -/
theorem C28_cose_key_fields {d : Dict} {k : CPK} (h : parseCoseKeyDict d = .ok k) :
    match k with
    | .ec2 b x y crv => b.kty.id = .EC2 ∧ IsEc2Curve crv.id ∧ x.length = coordLen crv.id ∧
        y.length = coordLen crv.id ∧ b.alg ≠ none ∧ OptMember .bytes d (.int 2) b.kid ∧
        OptMember .bytes d (.int 5) b.baseIV ∧ (b.keyOps = none ↔ Missing d (.int 4))
    | .okp b crv x => b.kty.id = .OKP ∧ IsOkpCurve crv.id ∧ x.length = coordLen crv.id ∧
        b.alg ≠ none ∧ OptMember .bytes d (.int 2) b.kid ∧
        OptMember .bytes d (.int 5) b.baseIV ∧ (b.keyOps = none ↔ Missing d (.int 4))
    | .base _ => False := by
  have ops : ∀ b, KeyMembers d b → b.alg ≠ none ∧ OptMember .bytes d (.int 2) b.kid ∧
      OptMember .bytes d (.int 5) b.baseIV ∧ (b.keyOps = none ↔ Missing d (.int 4)) := by
    rintro b ⟨-, h2, ⟨alg, v, ha, -⟩, h4, h5⟩
    refine ⟨by simp [ha], h2, h5, ?_⟩
    cases ho : b.keyOps with
    | none => rw [ho] at h4; simpa using h4
    | some ops =>
      rw [ho] at h4
      obtain ⟨-, vs, hs, -⟩ := h4
      simp only [reduceCtorEq, false_iff]
      rw [missing_iff]
      rcases hs with hs | hs
      · rw [(get_eq_iff (by simp)).mpr hs]; simp
      · rw [(get_eq_iff (by simp)).mpr hs]; simp
  rw [parseCoseKeyDict_ok_iff] at h
  cases k with
  | ec2 b x y crv =>
    obtain ⟨hb, h1, -, h3, -, -, h6, h7⟩ := h
    obtain ⟨k1, k2, k3, k4⟩ := ops b hb
    exact ⟨h1, h3, h6, h7, k1, k2, k3, k4⟩
  | okp b crv x =>
    obtain ⟨hb, h1, -, h3, -, h6⟩ := h
    obtain ⟨k1, k2, k3, k4⟩ := ops b hb
    exact ⟨h1, h3, h6, k1, k2, k3, k4⟩
  | base b => exact h

example : parseCoseKeyDict Demo.keyMap = .ok Demo.key :=
  (C28_cose_key_exact.1 _).mpr Demo.keyMap_key

/-! ## Client credentials -/

/-- C30: `parse_public_key_credential` succeeds exactly on credentials; every
failure is `ParserError` or `DecodingError`. -/
theorem C30_credential_exact (d : Dict) :
    (∀ c, parsePublicKeyCredential d = .ok c ↔ CredentialOf d c) ∧
    (∀ e, parsePublicKeyCredential d = .error e → e = .lib .parser ∨ e = .lib .decoding) :=
  ⟨fun _ => parseCredential_ok_iff, raises_parseCredential d⟩

/-- C30: which of the two responses it is. -/
theorem C30_response_kind {d rd : Dict} {c : Credential}
    (h : parsePublicKeyCredential d = .ok c) (hr : Lookup d (.str "response") (.dict rd)) :
    (∃ cdj ob, c.response = .attestation cdj ob) ↔ ¬ Absent rd (.str "attestationObject") := by
  rw [parseCredential_ok_iff] at h
  obtain ⟨-, -, -, -, rd', hr', h⟩ := h
  cases PyVal.dict.inj (lookup_unique hr hr')
  cases hc : c.response with
  | attestation cdj ob =>
    rw [hc] at h
    obtain ⟨-, -, t, ht, -⟩ := h
    simp [not_absent_of_lookup ht]
  | assertion cdj raw sig handle =>
    rw [hc] at h
    simp [absent_of_onlyKeys h.1 (s := "attestationObject") (by simp)]

/-- A registration response as a browser script would post it. -/
def sampleCredential : Dict :=
  [(.str "id", .str "wdLj9A"), (.str "rawId", .str "wdLj9A=="), (.str "type", .str "public-key"),
   (.str "response", .dict [(.str "clientDataJSON", .str "e30="),
     (.str "attestationObject", .str "oA==")])]

example : parsePublicKeyCredential sampleCredential =
    .ok ⟨"wdLj9A", "public-key", [0xc1, 0xd2, 0xe3, 0xf4], .attestation [0x7b, 0x7d] [0xa0]⟩ := by
  rfl

/-! ## Client data -/

/-- C31: `parse_client_data` succeeds exactly on client data. -/
theorem C31_client_data_exact {env : Env} {cdj : Bytes} {cd : ClientData} :
    parseClientData env cdj = .ok cd ↔ ClientDataOf env cdj cd := parseClientData_ok_iff

/-- C31: the token binding. -/
theorem C31_token_binding {env : Env} {cdj : Bytes} {cd : ClientData} {d : Dict}
    (h : parseClientData env cdj = .ok cd) (hd : ClientJson env cdj d) :
    (cd.tokenBinding = none ↔ Missing d (.str "tokenBinding")) ∧
    ∀ tb, cd.tokenBinding = some tb → tb.status = .PRESENT → tb.id ≠ .none := by
  rw [parseClientData_ok_iff] at h
  obtain ⟨d', ⟨t, ht, hj⟩, -, -, -, h⟩ := h
  obtain ⟨t', ht', hj'⟩ := hd
  cases (utf8Decode_ok_iff.mpr ht).symm.trans (utf8Decode_ok_iff.mpr ht') |> Except.ok.inj
  cases PyVal.dict.inj (Except.ok.inj (hj.symm.trans hj'))
  cases hb : cd.tokenBinding with
  | none => rw [hb] at h; simpa [TokenBindingMember] using h
  | some tb =>
    rw [hb] at h
    obtain ⟨td, hl, hs, -⟩ := h
    refine ⟨?_, fun tb' h' hp => ?_⟩
    · simp only [reduceCtorEq, false_iff]
      rw [missing_iff, (get_eq_iff (by simp)).mpr hl]
      simp
    · cases h'
      rcases hs with hs | hs
      · rw [hs.1] at hp; cases hp
      · exact hs.2.2

/-! ## Extensions -/

/-- C32: `parse_extensions` succeeds exactly on maps with the nine known names
and the documented types, and refuses everything else with `ParserError`. -/
theorem C32_extensions_exact {d : Dict} :
    (∀ e, parseExtensions d = .ok e ↔ ExtensionsOf d e) ∧
    ((∀ e, ¬ ExtensionsOf d e) → parseExtensions d = .error (.lib .parser)) := by
  refine ⟨fun k => parseExtensions_ok_iff, fun h => ?_⟩
  obtain ⟨e, he⟩ := error_of_not_ok fun k hk => h k (parseExtensions_ok_iff.mp hk)
  rw [he, raises_parseExtensions d e he]

/-- A map with one value of each shape. -/
example : parseExtensions
    [(.str "appid", .bool true), (.str "exts", .list [.str "uvm"]),
     (.str "loc", .dict [(.str "latitude", .int 51)]), (.str "uvm", .list [.list [.int 2, .int 4]])] =
    .ok { appid := some true, exts := some ["uvm"], loc := some ⟨some (.int 51), none, none, none, none, none, none⟩,
          uvm := some [[2, 4]] } := by
  rfl

/-! ## Attestation statements -/

/-- C33: each statement parser succeeds exactly on the statements of its format,
and refuses everything else with `ParserError`. -/
theorem C33_statement_exact {fmt : Fmt} {d : Dict} :
    (∀ s, parseAttStmt fmt d = .ok s ↔ AttStmtOf fmt d s) ∧
    ((∀ s, ¬ AttStmtOf fmt d s) → parseAttStmt fmt d = .error (.lib .parser)) := by
  refine ⟨fun k => parseAttStmt_ok_iff, fun h => ?_⟩
  obtain ⟨e, he⟩ := error_of_not_ok fun k hk => h k (parseAttStmt_ok_iff.mp hk)
  rw [he, raises_parseAttStmt fmt d e he]

/-- C33: the variant of a packed or TPM statement is the one of the key that is
present. -/
theorem C33_statement_variant {fmt : Fmt} {d : Dict} {s : AttStmt}
    (h : parseAttStmt fmt d = .ok s) (hf : fmt = .PACKED ∨ fmt = .TPM) :
    match s with
    | .packedX509 .. | .tpmX509 .. => ¬ Absent d (.str "x5c") ∧ Absent d (.str "ecdaaKeyId")
    | .packedECDAA .. | .tpmECDAA .. => Absent d (.str "x5c") ∧ ¬ Absent d (.str "ecdaaKeyId")
    | .packed .. | .tpm .. => Absent d (.str "x5c") ∧ Absent d (.str "ecdaaKeyId")
    | _ => False := by
  rw [parseAttStmt_ok_iff] at h
  cases s with
  | packed alg sig =>
    exact ⟨absent_of_onlyKeys h.2.1 (by simp), absent_of_onlyKeys h.2.1 (by simp)⟩
  | packedX509 alg sig x5c =>
    obtain ⟨-, hk, -, -, hx⟩ := h
    exact ⟨not_absent_of_seq hx, absent_of_onlyKeys hk (by simp)⟩
  | packedECDAA alg sig kid =>
    obtain ⟨-, hk, -, -, hx⟩ := h
    exact ⟨absent_of_onlyKeys hk (by simp), not_absent_of_lookup hx⟩
  | tpm alg sig ver ci pa =>
    exact ⟨absent_of_onlyKeys h.2.1 (by simp), absent_of_onlyKeys h.2.1 (by simp)⟩
  | tpmX509 alg sig ver ci pa x5c =>
    obtain ⟨-, hk, -, -, -, -, -, hx⟩ := h
    exact ⟨not_absent_of_seq hx, absent_of_onlyKeys hk (by simp)⟩
  | tpmECDAA alg sig ver ci pa kid =>
    obtain ⟨-, hk, -, -, -, -, -, hx⟩ := h
    exact ⟨absent_of_onlyKeys hk (by simp), not_absent_of_lookup hx⟩
  | androidKey alg sig x5c => rcases hf with rfl | rfl <;> cases h.1
  | safetyNet ver r => rcases hf with rfl | rfl <;> cases h.1
  | fidoU2F sig x5c => rcases hf with rfl | rfl <;> cases h.1
  | none => rcases hf with rfl | rfl <;> cases h.1

example : parseAttStmt .PACKED
    [(.str "alg", .int (-7)), (.str "sig", .bytes [1]), (.str "x5c", .list [.bytes [2]])] =
    .ok (.packedX509 (.value .ES256) [1] [[2]]) := by
  rfl

/-! ## Attestation objects -/

/-- C34: `parse_attestation_object` succeeds exactly on attestation objects. -/
theorem C34_attestation_object_exact {env : Env} {b raw : Bytes} {o : AttestationObject} :
    parseAttestationObject env b = .ok (o, raw) ↔ AttObjOf env b o raw :=
  parseAttestationObject_ok_iff

theorem attObj_extend {env : Env} (stream : StreamLaws env) {b raw : Bytes} {o : AttestationObject}
    (h : AttObjOf env b o raw) (t : Bytes) : AttObjOf env (b ++ t) o raw := by
  obtain ⟨d, rest, sd, h1, h2⟩ := h
  obtain ⟨used, -, rfl⟩ := stream.split h1
  exact ⟨d, rest ++ t, sd, by rw [List.append_assoc]; exact stream.extend h1 _, h2⟩

/-- C35 does not hold: whatever follows an attestation object is ignored. -/
theorem C35_trailing_data_ignored {env : Env} (stream : StreamLaws env) {b raw : Bytes}
    {o : AttestationObject} (h : parseAttestationObject env b = .ok (o, raw)) (t : Bytes) :
    parseAttestationObject env (b ++ t) = .ok (o, raw) := by
  rw [parseAttestationObject_ok_iff] at h ⊢
  exact attObj_extend stream h t

/-- The same for keys given as bytes. -/
theorem C35_trailing_data_ignored_key {env : Env} (stream : StreamLaws env) {b : Bytes} {k : CPK}
    (h : parseCoseKeyBytes env b = .ok k) (t : Bytes) :
    parseCoseKeyBytes env (b ++ t) = .ok k := by
  rw [C28_cose_key_bytes] at h ⊢
  obtain ⟨d, rest, h1, h2⟩ := h
  obtain ⟨used, -, rfl⟩ := stream.split h1
  exact ⟨d, rest ++ t, by rw [List.append_assoc]; exact stream.extend h1 _, h2⟩

/-- The full statement of C35. -/
def NoTrailingData (env : Env) : Prop :=
  (∀ b o t, parseAttestationObject env b = .ok o → t ≠ [] →
    ∃ e, parseAttestationObject env (b ++ t) = .error e) ∧
  (∀ b k t, parseCoseKeyBytes env b = .ok k → t ≠ [] →
    ∃ e, parseCoseKeyBytes env (b ++ t) = .error e)

theorem demo_key_parses : parseCoseKeyBytes Demo.env Demo.keyBytes = .ok Demo.key := by
  rw [C28_cose_key_bytes]
  obtain ⟨d, h, h', -⟩ := encodedKey_of Demo.codec (rest := []) Demo.keyBytes_enc
  rw [List.append_nil] at h
  exact ⟨d, [], h, h'⟩

theorem demo_attObj_parses :
    parseAttestationObject Demo.env Demo.attObj = .ok (⟨Demo.regAd, .NONE, .none⟩, Demo.regRaw) := by
  rw [parseAttestationObject_ok_iff]
  obtain ⟨d, h1, h2, h3, h4, h5⟩ := Demo.attObj_enc
  have := Demo.codec.roundTrip h4 h5 []
  rw [List.append_nil] at this
  exact ⟨d, [], [], this, h3, encodedAuthData_of Demo.codec Demo.regRaw_enc, h1, h2, rfl, rfl⟩

/-- C35 is refuted, for both parsers. -/
theorem C35_no_trailing_data_refuted :
    ¬ NoTrailingData Demo.env ∧
    (∃ b o, parseAttestationObject Demo.env b = .ok o ∧
      parseAttestationObject Demo.env (b ++ [0]) = .ok o) ∧
    (∃ b k, parseCoseKeyBytes Demo.env b = .ok k ∧
      parseCoseKeyBytes Demo.env (b ++ [0]) = .ok k) := by
  have h1 := C35_trailing_data_ignored_key Demo.stream demo_key_parses [0]
  have h2 := C35_trailing_data_ignored Demo.stream demo_attObj_parses [0]
  refine ⟨fun h => ?_, ⟨_, _, demo_attObj_parses, h2⟩, ⟨_, _, demo_key_parses, h1⟩⟩
  obtain ⟨e, he⟩ := h.2 _ _ [0] demo_key_parses (by simp)
  rw [h1] at he
  cases he

/-! ## The hypotheses above can be met -/

theorem demo_authData_parses : parseAuthenticatorData Demo.env Demo.regRaw = .ok Demo.regAd :=
  C25_auth_data_round_trip Demo.codec Demo.regRaw_enc

example : ∃ e, parseAuthenticatorData Demo.env (Demo.regRaw ++ [0]) = .error e :=
  C26_padded Demo.stream demo_authData_parses (by simp)

example : ∃ e, parseAuthenticatorData Demo.env Demo.regRaw.dropLast = .error e :=
  C26_truncated Demo.stream demo_authData_parses
    (List.dropLast_append_getLast (by simp [Demo.regRaw])).symm (by simp)

example : ∃ k, Demo.attested.credentialPublicKey = some k ∧ KeyConsistent k :=
  C29_attested_key_consistent demo_authData_parses rfl

end WebAuthn.Props
