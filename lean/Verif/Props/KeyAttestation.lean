import Verif.Props.Attest
import Verif.Lemmas.KeyAttestation

/-!
# The Android key description on bytes (C58)
-/

namespace WebAuthn.Props

open WebAuthn WebAuthn.Asn1 WebAuthn.Spec

/-- C58: the schema of the package has room for every documented key description:
if the decoder decodes DER, it decodes each of them, whatever comes after it, and
the result meets the checks of the package exactly if the parts meet those of the
standard. -/
theorem C58_documented_decoded {env : Env} (hl : DerLaw env) {d : KeyDesc} {b : Bytes}
    (hd : KeyDescriptionOf d b) (rest : Bytes) :
    ∃ kd, env.decodeDer keyDescription (b ++ rest) = .ok kd ∧
      ∀ hash, KeyDescriptionOk kd hash ↔ d.Ok hash := by
  obtain ⟨v, h1, h2⟩ := keyDescription_der hd
  obtain ⟨_, _, _, _, _, _, _, _, _, _, _, _, _, _, hs, ht, _⟩ := hd
  exact ⟨v, hl v b rest h1, keyDescriptionOk_iff h2 hs.1 ht.1⟩

/-- C58: when the extension of the first certificate holds a key description in
DER, an Android key statement is accepted exactly if the signature and the key are
right and the key description has, under its tag numbers, what the standard asks
for. -/
theorem C58_android_exact {env : Env} (hl : DerLaw env) {alg : NV Alg} {sig certBytes : Bytes}
    {others : List Bytes} {o : AttestationObject} {raw hash : Bytes} {cert : Cert} {d : KeyDesc}
    {b rest : Bytes} (hcert : env.loadCert certBytes = .ok cert)
    (hext : cert.keyAttestationExt = .ok (some (b ++ rest))) (hd : KeyDescriptionOf d b)
    (r : AttestationType × TrustedPath) :
    attest env (.androidKey alg sig (certBytes :: others)) (.attObj o) raw hash = .ok r ↔
      (∃ pk acd k cpk, cert.publicKey = .ok pk ∧ CertSigned env alg.id sig (raw ++ hash) pk ∧
        o.authData.attested = some acd ∧ acd.credentialPublicKey = some k ∧ KeyOf env k cpk ∧
        env.spki cpk = env.spki pk) ∧
      d.Ok hash ∧ r = (.BASIC, some [cert]) := by
  obtain ⟨kd, h1, h2⟩ := C58_documented_decoded hl hd rest
  rw [C22_android_key_exact]
  constructor
  · rintro ⟨cert', ⟨cb, os, pk, acd, k, cpk, ext, kd', he, g1, g2, g3, g4, g5, g6, g7, g8, g9, g10⟩, rfl⟩
    cases he
    rw [hcert] at g1
    cases g1
    rw [hext] at g8
    cases g8
    rw [h1] at g9
    cases g9
    exact ⟨⟨pk, acd, k, cpk, g2, g3, g4, g5, g6, g7⟩, (h2 hash).mp g10, rfl⟩
  · rintro ⟨⟨pk, acd, k, cpk, g2, g3, g4, g5, g6, g7⟩, h3, rfl⟩
    exact ⟨cert, ⟨certBytes, others, pk, acd, k, cpk, b ++ rest, kd, rfl, hcert, g2, g3, g4, g5, g6, g7,
      hext, h1, (h2 hash).mpr h3⟩, rfl⟩

/-- The values under the tags 702 and 1 have the documented types. -/
theorem authList_typed {es : AuthList} {b : Bytes} (h : AuthListOf es b) :
    (∀ v, (702, v) ∈ es → ∃ n, v = .integer n) ∧ ∀ v, (1, v) ∈ es → ∃ l, v = .set l := by
  obtain ⟨-, parts, h, -⟩ := h
  have key : ∀ e ∈ es, ∃ inner, Authorization e.1 e.2 inner := by
    clear * - h
    induction h with
    | nil => simp
    | cons h _ ih =>
      intro e he
      rcases List.mem_cons.mp he with rfl | he
      · exact ⟨h.choose, h.choose_spec.1⟩
      · exact ih e he
  constructor
  · intro v hv
    obtain ⟨inner, ha⟩ := key _ hv
    cases ha with
    | integer _ _ _ _ hd =>
      unfold Der at hd
      obtain ⟨n, _, h, _⟩ := hd
      exact ⟨n, h⟩
    | set _ _ _ h => simp [setTags] at h
    | null _ _ _ h => simp [nullTags] at h
    | octets _ _ _ h => simp [octetTags] at h
  · intro v hv
    obtain ⟨inner, ha⟩ := key _ hv
    cases ha with
    | integer _ _ _ h => simp [integerTags] at h
    | set _ _ _ _ hd =>
      unfold Der at hd
      obtain ⟨l, _, h, _⟩ := hd
      exact ⟨l, h⟩
    | null _ _ _ h => simp [nullTags] at h
    | octets _ _ _ h => simp [octetTags] at h

theorem checkKeyDescription_lib {d : KeyDesc} {v : Val} {b : Bytes} (hd : KeyDescriptionOf d b)
    (h : Represents d v) (hash : Bytes) :
    checkKeyDescription ⟨keyDescription, some v⟩ hash = .ok () ∨
      checkKeyDescription ⟨keyDescription, some v⟩ hash = .error (.lib .attestation) := by
  obtain ⟨_, _, _, _, _, _, _, _, _, _, _, _, _, _, hs, ht, _⟩ := hd
  obtain ⟨t1, t2⟩ := authList_typed ht
  obtain ⟨sw, tee, h1, h2, rfl⟩ := h
  have m702 : (702, "origin", Ty.integer) ∈ authEntries := mem_of_lookup rfl
  have m1 : (1, "purpose", Ty.setOf .integer) ∈ authEntries := mem_of_lookup rfl
  have l702 := h2.lookup_iff authEntries_distinct ht.1 m702
  have l1 := h2.lookup_iff authEntries_distinct ht.1 m1
  have f4 : ∀ v, Asn1.Obj.item ⟨Asn1.authorizationList, v⟩ "allApplications" =
      .ok ⟨.null, Asn1.child v "allApplications"⟩ := fun v => item_ok v rfl
  have f5 : ∀ v, Asn1.Obj.item ⟨Asn1.authorizationList, v⟩ "origin" =
      .ok ⟨.integer, Asn1.child v "origin"⟩ := fun v => item_ok v rfl
  have f6 : ∀ v, Asn1.Obj.item ⟨Asn1.authorizationList, v⟩ "purpose" =
      .ok ⟨.setOf .integer, Asn1.child v "purpose"⟩ := fun v => item_ok v rfl
  have f1 : ∀ v, Asn1.Obj.item ⟨Asn1.keyDescription, v⟩ "attestationChallenge" =
      .ok ⟨.octetString, Asn1.child v "attestationChallenge"⟩ := fun v => item_ok v rfl
  have f2 : ∀ v, Asn1.Obj.item ⟨Asn1.keyDescription, v⟩ "softwareEnforced" =
      .ok ⟨Asn1.authorizationList, Asn1.child v "softwareEnforced"⟩ := fun v => item_ok v rfl
  have f3 : ∀ v, Asn1.Obj.item ⟨Asn1.keyDescription, v⟩ "teeEnforced" =
      .ok ⟨Asn1.authorizationList, Asn1.child v "teeEnforced"⟩ := fun v => item_ok v rfl
  have c1 : Asn1.child (some (.sequence [("attestationVersion", .integer d.attestationVersion),
      ("attestationSecurityLevel", .enumerated d.attestationSecurityLevel),
      ("keymasterVersion", .integer d.keymasterVersion),
      ("keymasterSecurityLevel", .enumerated d.keymasterSecurityLevel),
      ("attestationChallenge", .octets d.challenge), ("uniqueId", .octets d.uniqueId),
      ("softwareEnforced", .sequence sw), ("teeEnforced", .sequence tee)])) "attestationChallenge" =
      some (.octets d.challenge) := rfl
  have c3 : Asn1.child (some (.sequence [("attestationVersion", .integer d.attestationVersion),
      ("attestationSecurityLevel", .enumerated d.attestationSecurityLevel),
      ("keymasterVersion", .integer d.keymasterVersion),
      ("keymasterSecurityLevel", .enumerated d.keymasterSecurityLevel),
      ("attestationChallenge", .octets d.challenge), ("uniqueId", .octets d.uniqueId),
      ("softwareEnforced", .sequence sw), ("teeEnforced", .sequence tee)])) "teeEnforced" =
      some (.sequence tee) := rfl
  have req : ∀ (b : Bool) (k : Py Unit), (k = .ok () ∨ k = .error (.lib .attestation)) →
      ((require b .attestation >>= fun _ => k) = .ok () ∨
        (require b .attestation >>= fun _ => k) = .error (.lib .attestation)) := by
    intro b k hk
    cases b
    · exact Or.inr rfl
    · exact hk
  have req' : ∀ (b : Bool), require b .attestation = .ok () ∨
      require b .attestation = .error (.lib .attestation) := by
    intro b
    cases b
    · exact Or.inr rfl
    · exact Or.inl rfl
  simp only [checkKeyDescription, f1, f2, f3, f4, f5, f6, ok_bind, c1, c3, Obj.asOctets]
  refine req _ _ (req _ _ ?_)
  cases ho : tee.lookup "origin" with
  | none => exact Or.inr (by simp only [child, ho]; rfl)
  | some o =>
    obtain ⟨n, rfl⟩ := t1 o ((l702 o).mp ho)
    have co : child (some (.sequence tee)) "origin" = some (.integer n) := ho
    simp only [co, Obj.toInt, ok_bind]
    refine req _ _ (req _ _ ?_)
    cases hp : tee.lookup "purpose" with
    | none => exact Or.inr (by simp only [child, hp]; rfl)
    | some p =>
      obtain ⟨l, rfl⟩ := t2 p ((l1 p).mp hp)
      have cp : child (some (.sequence tee)) "purpose" = some (.set l) := hp
      simp only [cp, Obj.count, ok_bind]
      exact req _ _ (req' _)

/-- C58: a statement with the right signature and key whose key description does
not have what the standard asks for is refused with `AttestationError`. -/
theorem C58_android_refused {env : Env} (hl : DerLaw env) {alg : NV Alg} {sig certBytes : Bytes}
    {others : List Bytes} {o : AttestationObject} {raw hash : Bytes} {cert : Cert} {d : KeyDesc}
    {b rest : Bytes} (hcert : env.loadCert certBytes = .ok cert)
    (hext : cert.keyAttestationExt = .ok (some (b ++ rest))) (hd : KeyDescriptionOf d b)
    {pk : CryptoKey} {acd : AttestedCredentialData} {k : CPK} {cpk : CryptoKey}
    (h1 : cert.publicKey = .ok pk) (h2 : CertSigned env alg.id sig (raw ++ hash) pk)
    (h3 : o.authData.attested = some acd) (h4 : acd.credentialPublicKey = some k)
    (h5 : KeyOf env k cpk) (h6 : env.spki cpk = env.spki pk) (hbad : ¬ d.Ok hash) :
    attest env (.androidKey alg sig (certBytes :: others)) (.attObj o) raw hash =
      .error (.lib .attestation) := by
  obtain ⟨v, g1, g2⟩ := keyDescription_der hd
  have hnot : checkKeyDescription ⟨keyDescription, some v⟩ hash = .error (.lib .attestation) := by
    rcases checkKeyDescription_lib hd g2 hash with h | h
    · rw [checkKeyDescription_ok_iff] at h
      obtain ⟨_, _, _, _, _, _, _, _, _, _, _, _, _, _, hs, ht, _⟩ := hd
      exact absurd ((keyDescriptionOk_iff g2 hs.1 ht.1 hash).mp h) hbad
    · exact h
  have hk : isEcOrEdKey pk = true := by cases h2 <;> rfl
  show attestAndroidKey env alg sig (certBytes :: others) (.attObj o) raw hash = _
  have r1 : require (isEcOrEdKey pk) LibErr.attestation = .ok () := require_ok_iff.mpr hk
  have r2 : require (env.spki pk == env.spki pk) LibErr.attestation = .ok () :=
    require_ok_iff.mpr BEq.rfl
  have r3 : catching (Except.ok (b ++ rest) : Py Bytes) isExtensionNotFound .attestation =
    .ok (b ++ rest) := rfl
  have r4 : catching (Except.ok v : Py Val) isPyAsn1Error .attestation = .ok v := rfl
  have r5 : androidVerify env alg sig pk (raw ++ hash) = .ok () := androidVerify_ok_iff.mpr h2
  simp only [attestAndroidKey, hcert, h1, ok_bind, r1, AttObjArg.authData,
    attestedOf_ok_iff.mpr h3, h4, cryptographyPublicKey_ok_iff.mpr h5,
    r5, h6, r2, hext, pure_eq_ok, r3, hl v b rest g1, r4, hnot]
  rfl

/-- C58: bytes hold at most one documented key description, so what is checked
does not depend on how they are read. -/
theorem C58_unambiguous {d d' : KeyDesc} {b b' r r' : Bytes} (h : KeyDescriptionOf d b)
    (h' : KeyDescriptionOf d' b') (he : b ++ r = b' ++ r') : d = d' ∧ b = b' ∧ r = r' := by
  obtain ⟨v, h1, h2⟩ := keyDescription_der h
  obtain ⟨v', h3, h4⟩ := keyDescription_der h'
  have h5 := Der.dec_write keyDescription Der.keyDescription_wellTagged v b r h1
  have h6 := Der.dec_write keyDescription Der.keyDescription_wellTagged v' b' r' h3
  rw [he, h6] at h5
  simp only [Option.some.injEq, Prod.mk.injEq] at h5
  obtain ⟨rfl, rfl⟩ := h5
  exact ⟨represents_unique h2 h4, List.append_cancel_right he, rfl⟩

/-! ## An example -/

namespace Android

def desc : KeyDesc := {
  attestationVersion := 3, attestationSecurityLevel := 1, keymasterVersion := 4,
  keymasterSecurityLevel := 1, challenge := hash, uniqueId := [], software := []
  tee := [(1, .set [.integer 2]), (702, .integer 0)] }

theorem low {cls n : Nat} {k : Bool} {c : Bytes} (hn : n < 31) (hc : c.length < 128) :
    Tlv cls k n c (firstOctet cls k n :: UInt8.ofNat c.length :: c) :=
  ⟨_, _, .low n hn, .short _ hc, rfl⟩

theorem integer {x : UInt8} (hx : x.toNat < 128) : IntegerOctets x.toNat [x] :=
  .positive x [] x.toNat hx (Demo.bigEndian_of (by simp [beNat])) (by simp)

theorem desc_ext : KeyDescriptionOf desc ext := by
  refine ⟨[0x02, 1, 3], [0x0a, 1, 1], [0x02, 1, 4], [0x0a, 1, 1], [0x04, 3, 1, 2, 3], [0x04, 0],
    [0x30, 0], [0x30, 0x0e, 0xa1, 5, 0x31, 3, 0x02, 1, 2, 0xbf, 0x85, 0x3e, 3, 0x02, 1, 0],
    ?_, ?_, ?_, ?_, ?_, ?_, ?_, ?_, ?_⟩
  · unfold Der; exact ⟨_, [3], rfl, integer (x := 3) (by decide), low (by decide) (by decide)⟩
  · unfold Der; exact ⟨_, [1], rfl, integer (x := 1) (by decide), low (by decide) (by decide)⟩
  · unfold Der; exact ⟨_, [4], rfl, integer (x := 4) (by decide), low (by decide) (by decide)⟩
  · unfold Der; exact ⟨_, [1], rfl, integer (x := 1) (by decide), low (by decide) (by decide)⟩
  · unfold Der; exact ⟨_, rfl, low (by decide) (by decide)⟩
  · unfold Der; exact ⟨_, rfl, low (by decide) (by decide)⟩
  · exact ⟨.nil, [], .nil, low (by decide) (by decide)⟩
  · refine ⟨by simp [desc], [[0xa1, 5, 0x31, 3, 0x02, 1, 2], [0xbf, 0x85, 0x3e, 3, 0x02, 1, 0]],
      .cons ⟨[0x31, 3, 0x02, 1, 2], .set _ _ _ (by decide) ?_, low (by decide) (by decide)⟩
        (.cons ⟨[0x02, 1, 0], .integer _ _ _ (by decide) ?_, ?_⟩ .nil), low (by decide) (by decide)⟩
    · unfold Der
      refine ⟨[.integer 2], [[0x02, 1, 2]], rfl, .cons ?_ .nil, low (by decide) (by decide)⟩
      unfold Der
      exact ⟨_, [2], rfl, integer (x := 2) (by decide), low (by decide) (by decide)⟩
    · unfold Der; exact ⟨_, [0], rfl, integer (x := 0) (by decide), low (by decide) (by decide)⟩
    · exact ⟨[0xbf, 0x85, 0x3e], [3], .high 702 [5] 62 (by decide)
        (.snoc [5] 5 62 (.snoc [] 0 5 .nil (by decide)) (by decide)) (by decide), .short _ (by decide), rfl⟩
  · exact low (by decide) (by decide)

theorem desc_ok : desc.Ok hash :=
  ⟨rfl, by simp [desc], by simp [desc], by simp [desc], _, .head _, .head _⟩

end Android

example : attest Demo.env (.androidKey (.value .ES256) Android.sig Android.x5c) (.attObj Android.att)
    Android.raw Android.hash = .ok (.BASIC, some [Android.cert]) :=
  (C58_android_exact Demo.der (d := Android.desc) (b := Android.ext) (rest := []) (cert := Android.cert)
    rfl rfl Android.desc_ext _).mpr
    ⟨⟨.ec .SECP256R1 7 1, _, Android.key, .ec .SECP256R1 7 1, rfl,
      .ec _ _ _ .SHA256 .es256 (Demo.check_sign _ _), rfl, rfl,
      .ec2 _ _ _ _ _ _ _ .p256 (Demo.bigEndian_of rfl) (Demo.bigEndian_of rfl) rfl, rfl⟩,
      Android.desc_ok, rfl⟩

/-- With another client data hash, and more bytes after the key description. -/
example : attest Demo.env (.androidKey (.value .ES256)
      (Demo.sign (.ec .SECP256R1 7 1) (Android.raw ++ [9])) [0x30 :: 7 :: (Android.ext ++ [8])])
    (.attObj Android.att) Android.raw [9] = .error (.lib .attestation) :=
  C58_android_refused Demo.der (d := Android.desc) (b := Android.ext) (rest := [8])
    (cert := ⟨beNat (Android.ext ++ [8]), .ok (.ec .SECP256R1 7 1), .ok (some (Android.ext ++ [8]))⟩)
    (pk := .ec .SECP256R1 7 1) (k := Android.key) (cpk := .ec .SECP256R1 7 1)
    rfl rfl Android.desc_ext rfl (.ec _ _ _ .SHA256 .es256 (Demo.check_sign _ _)) rfl rfl
    (.ec2 _ _ _ _ _ _ _ .p256 (Demo.bigEndian_of rfl) (Demo.bigEndian_of rfl) rfl) rfl
    (fun h => by cases h.1)

end WebAuthn.Props
