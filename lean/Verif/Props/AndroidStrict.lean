import Verif.Model.RepairedAndroid
import Verif.Spec.AndroidStrict
import Verif.Props.KeyAttestation

/-!
# Android key statements to the letter (C90, C91)
-/

namespace WebAuthn.Props

open WebAuthn WebAuthn.Asn1 WebAuthn.Spec

/-! ## Lemmas -/

theorem loadChain_ok_iff {env : Env} {x5c : List Bytes} {certs : List Cert} :
    Repaired.loadChain env x5c = .ok certs ↔ ChainOf env x5c certs := by
  unfold ChainOf
  induction x5c generalizing certs with
  | nil =>
    simp only [Repaired.loadChain, Except.ok.injEq, List.forall₂_nil_left_iff]
    exact eq_comm
  | cons b bs ih =>
    simp only [Repaired.loadChain, bind_ok_iff, catching_ok_iff, pure_eq_ok, Except.ok.injEq,
      List.forall₂_cons_left_iff, ih]
    constructor
    · rintro ⟨c, h1, cs, h2, rfl⟩
      exact ⟨c, cs, h1, h2, rfl⟩
    · rintro ⟨c, cs, h1, h2, rfl⟩
      exact ⟨c, h1, cs, h2, rfl⟩

theorem chainOf_unique {env : Env} {x5c : List Bytes} {certs certs' : List Cert}
    (h : ChainOf env x5c certs) (h' : ChainOf env x5c certs') : certs = certs' := by
  rw [← loadChain_ok_iff] at h h'
  rw [h] at h'
  exact Except.ok.inj h'

theorem signedWith_iff {env : Env} {alg : NV Alg} {sig data : Bytes} {pk : CryptoKey} :
    SignedWith env alg.id sig data pk ↔
      CertSigned env alg.id sig data pk ∧ Repaired.algFits alg pk = true := by
  constructor
  · intro h
    generalize ha : alg.id = a at h
    cases h with
    | ecdsa _ h _ _ c x y h1 h2 => exact ⟨.ec c x y h h1 h2, rfl⟩
    | ed25519 _ _ raw h => exact ⟨.ed25519 raw h, by simp [Repaired.algFits, ha]⟩
    | ed448 _ _ raw h => exact ⟨.ed448 raw h, by simp [Repaired.algFits, ha]⟩
  · rintro ⟨h, hf⟩
    cases h with
    | ec c x y h h1 h2 => exact .ecdsa _ h _ _ c x y h1 h2
    | ed25519 raw h =>
      rw [show alg.id = .EDDSA from by simpa [Repaired.algFits] using hf]
      exact .ed25519 _ _ raw h
    | ed448 raw h =>
      rw [show alg.id = .EDDSA from by simpa [Repaired.algFits] using hf]
      exact .ed448 _ _ raw h

theorem allAre_ok_iff {o : Asn1.Obj} {n : Int} {r : Bool} :
    Repaired.allAre o n = .ok r ↔ ∃ l, o.val = some (.set l) ∧ l.all (Asn1.Val.isInt n) = r := by
  unfold Repaired.allAre
  split <;> simp_all

theorem all_isInt {l : List Asn1.Val} {n : Int} :
    l.all (Asn1.Val.isInt n) = true ↔ ∀ p ∈ l, p = .integer n := by
  rw [List.all_eq_true]
  refine forall₂_congr fun p _ => ?_
  cases p <;> simp [Asn1.Val.isInt]

theorem component_unique {v : Asn1.Val} {path : List String} {w w' : Asn1.Val}
    (h : Component v path w) (h' : Component v path w') : w = w' := by
  induction path generalizing v with
  | nil => exact h.symm.trans h'
  | cons name path ih =>
    obtain ⟨cs, u, rfl, h1, h2⟩ := h
    obtain ⟨cs', u', e, h1', h2'⟩ := h'
    cases e
    rw [h1] at h1'
    cases h1'
    exact ih h2 h2'

theorem purposeCheck_ok_iff {kd : Asn1.Val} {hash : Bytes} (hk : KeyDescriptionOk kd hash) {u : Unit} :
    (do require (← Repaired.allAre (← (← Asn1.Obj.item ⟨Asn1.keyDescription, some kd⟩ "teeEnforced").item
      "purpose") 2) .attestation : Py Unit) = .ok u ↔ SignOnly kd := by
  have f3 : ∀ v, Asn1.Obj.item ⟨Asn1.keyDescription, v⟩ "teeEnforced" =
      .ok ⟨Asn1.authorizationList, Asn1.child v "teeEnforced"⟩ := fun v => item_ok v rfl
  have f6 : ∀ v, Asn1.Obj.item ⟨Asn1.authorizationList, v⟩ "purpose" =
      .ok ⟨.setOf .integer, Asn1.child v "purpose"⟩ := fun v => item_ok v rfl
  obtain ⟨-, -, -, -, l, h1, h2⟩ := hk
  simp only [f3, f6, ok_bind, bind_ok_iff, require_ok_iff, allAre_ok_iff, child_child_iff]
  unfold SignOnly
  constructor
  · rintro ⟨_, ⟨l', h3, h4⟩, rfl⟩
    obtain rfl : l = l' := by cases component_unique h1 h3; rfl
    exact ⟨l, h1, List.ne_nil_of_mem h2, all_isInt.mp h4⟩
  · rintro ⟨l', h3, -, h4⟩
    exact ⟨true, ⟨l', h3, all_isInt.mpr h4⟩, rfl⟩

/-! ## C90: the trust path -/

/-- C90: `attest` gives the chain as trust path for every statement but Android key statements with
several certificates.  Missing: those; see `C90_trust_path_refuted`. -/
theorem C90_trust_path_partial {env : Env} {s : AttStmt} {x5c : List Bytes} {o : AttestationObject}
    {raw hash : Bytes} {ty : AttestationType} {path : TrustedPath} (hc : Carries s x5c)
    (hs : x5c.length ≤ 1) (h : attest env s (.attObj o) raw hash = .ok (ty, path)) :
    ∃ certs, path = some certs ∧ ChainOf env x5c certs := by
  cases hc with
  | fidoU2F sig x5c =>
    obtain ⟨cert, ⟨cb, _, _, _, _, _, _, _, rfl, h1, -⟩, h2⟩ := C21_fido_u2f_exact.mp h
    cases h2
    exact ⟨_, rfl, .cons h1 .nil⟩
  | androidKey alg sig x5c =>
    obtain ⟨cert, ⟨cb, others, _, _, _, _, _, _, rfl, h1, -⟩, h2⟩ := C22_android_key_exact.mp h
    cases h2
    obtain rfl : others = [] := by simpa using hs
    exact ⟨_, rfl, .cons h1 .nil⟩

/-- C90: an accepted FIDO U2F statement has one certificate, so its trust path is always the chain. -/
theorem C90_fido_u2f {env : Env} {sig : Bytes} {x5c : List Bytes} {o : AttestationObject}
    {raw hash : Bytes} {ty : AttestationType} {path : TrustedPath}
    (h : attest env (.fidoU2F sig x5c) (.attObj o) raw hash = .ok (ty, path)) :
    ∃ certs, path = some certs ∧ ChainOf env x5c certs := by
  refine C90_trust_path_partial (.fidoU2F sig x5c) ?_ h
  obtain ⟨cert, ⟨cb, _, _, _, _, _, _, _, rfl, -⟩, -⟩ := C21_fido_u2f_exact.mp h
  exact le_rfl

/-- C90: what `attest` says of an Android key statement does not depend on the certificates after
the first. -/
theorem C90_rest_ignored (env : Env) (alg : NV Alg) (sig b : Bytes) (rest rest' : List Bytes)
    (o : AttObjArg) (raw hash : Bytes) :
    attest env (.androidKey alg sig (b :: rest)) o raw hash =
      attest env (.androidKey alg sig (b :: rest')) o raw hash := rfl

/-! ## C91: algorithm and purpose -/

/-- C91: the repaired `attest` accepts an Android key statement exactly if it is valid to the letter,
with type BASIC and the chain as trust path. -/
theorem C91_repaired_exact {env : Env} {alg : NV Alg} {sig : Bytes} {x5c : List Bytes}
    {o : AttestationObject} {raw hash : Bytes} {r : AttestationType × TrustedPath} :
    Repaired.attestStrict env (.androidKey alg sig x5c) (.attObj o) raw hash = .ok r ↔
      ∃ certs, AndroidStrict env alg.id sig x5c o.authData raw hash certs ∧
        r = (.BASIC, some certs) := by
  show Repaired.attestAndroidKey env alg sig x5c (.attObj o) raw hash = .ok r ↔ _
  unfold Repaired.attestAndroidKey AndroidStrict
  simp only [bind_ok_iff, loadChain_ok_iff]
  refine exists_congr fun certs => ?_
  rw [and_assoc]
  refine and_congr_right fun hch => ?_
  cases certs with
  | nil => simp [raise]
  | cons cert others =>
    simp only [bind_ok_iff, require_ok_iff, AttObjArg.authData, Except.ok.injEq,
      exists_eq_left', attestedOf_ok_iff, pure_eq_ok]
    constructor
    · rintro ⟨pk, h2, _, h3, _, hf, acd, h4, h⟩
      cases hk : acd.credentialPublicKey with
      | none => rw [hk] at h; simp [raise] at h
      | some k =>
        rw [hk] at h
        simp only [bind_ok_iff, catching_ok_iff, require_ok_iff, androidVerify_ok_iff, beq_iff_eq,
          checkKeyDescription_ok_iff, cryptographyPublicKey_ok_iff, Except.ok.injEq] at h
        obtain ⟨cpk, h5, _, h6, _, h7, ext, ⟨ox, h8, h8'⟩, kd, h9, _, h10, tee, g1, pur, g2, ok, g3, _, g4,
          rfl⟩ := h
        cases ox with
        | none => cases h8'
        | some e =>
          cases h8'
          refine ⟨⟨cert, others, pk, acd, k, cpk, ext, kd, rfl, h2, signedWith_iff.mpr ⟨h6, hf⟩, h4, hk, h5,
            h7, h8, h9, h10, ?_⟩, rfl⟩
          refine (purposeCheck_ok_iff (u := ()) h10).mp ?_
          simp only [bind_ok_iff, require_ok_iff]
          exact ⟨tee, g1, pur, g2, ok, g3, g4⟩
    · rintro ⟨⟨cert', others', pk, acd, k, cpk, ext, kd, he, h2, h3, h4, h5, h6, h7, h8, h9, h10, h11⟩, rfl⟩
      cases he
      obtain ⟨h3, hf⟩ := signedWith_iff.mp h3
      refine ⟨pk, h2, (), by cases h3 <;> rfl, (), hf, acd, h4, ?_⟩
      simp only [h5, bind_ok_iff, catching_ok_iff, require_ok_iff, androidVerify_ok_iff, beq_iff_eq,
        checkKeyDescription_ok_iff, cryptographyPublicKey_ok_iff]
      have := (purposeCheck_ok_iff (u := ()) h10).mpr h11
      simp only [bind_ok_iff, require_ok_iff] at this
      obtain ⟨tee, g1, pur, g2, ok, g3, g4⟩ := this
      exact ⟨cpk, h6, (), h3, (), h7, ext, ⟨some ext, h8, rfl⟩, kd, h9, (), h10, tee, g1, pur, g2, ok, g3, (),
        g4, trivial⟩

/-- A statement that is valid to the letter is valid. -/
theorem strict_ok {env : Env} {alg : NV Alg} {sig : Bytes} {x5c : List Bytes} {ad : AuthData}
    {raw hash : Bytes} {certs : List Cert}
    (h : AndroidStrict env alg.id sig x5c ad raw hash certs) :
    ∃ cert others, certs = cert :: others ∧ AndroidOk env alg.id sig x5c ad raw hash cert := by
  obtain ⟨hch, cert, others, pk, acd, k, cpk, ext, kd, rfl, h2, h3, h4, h5, h6, h7, h8, h9, h10, -⟩ := h
  obtain ⟨b, bs, h1, -, rfl⟩ := List.forall₂_cons_right_iff.mp hch
  exact ⟨cert, others, rfl, b, bs, pk, acd, k, cpk, ext, kd, rfl, h1, h2, (signedWith_iff.mp h3).1, h4, h5,
    h6, h7, h8, h9, h10⟩

/-- C90: with the repair the trust path is the chain of the statement. -/
theorem C90_repaired_trust_path (env : Env) : PathIsChain Repaired.attestStrict env := by
  intro s x5c o raw hash ty path hc h
  cases hc with
  | fidoU2F sig x5c => exact C90_fido_u2f (raw := raw) h
  | androidKey alg sig x5c =>
    obtain ⟨certs, ⟨hch, -⟩, h2⟩ := C91_repaired_exact.mp h
    cases h2
    exact ⟨certs, rfl, hch⟩

/-- C90: the repair takes nothing that `attest` did not take, gives the same type, and a trust path
with the same first certificate. -/
theorem C90_repaired_extends {env : Env} {s : AttStmt} {o : AttestationObject} {raw hash : Bytes}
    {ty : AttestationType} {path : TrustedPath}
    (h : Repaired.attestStrict env s (.attObj o) raw hash = .ok (ty, path)) :
    ∃ path', attest env s (.attObj o) raw hash = .ok (ty, path') ∧
      path'.map List.head? = path.map List.head? := by
  cases s with
  | androidKey alg sig x5c =>
    obtain ⟨certs, hv, h2⟩ := C91_repaired_exact.mp h
    cases h2
    obtain ⟨cert, others, rfl, hok⟩ := strict_ok hv
    exact ⟨some [cert], C22_android_key_exact.mpr ⟨cert, hok, rfl⟩, rfl⟩
  | _ => exact ⟨path, h, rfl⟩

/-- C90: the repair leaves statements of other formats alone. -/
theorem C90_repaired_others {env : Env} {s : AttStmt} (hs : ∀ alg sig x5c, s ≠ .androidKey alg sig x5c)
    (o : AttObjArg) (raw hash : Bytes) :
    Repaired.attestStrict env s o raw hash = attest env s o raw hash := by
  cases s with
  | androidKey alg sig x5c => exact absurd rfl (hs alg sig x5c)
  | _ => rfl

/-- C91: what holds of `attest`: the signature of an accepted Android key statement is one by the key
of the first certificate, of the algorithm of the statement if that key is not an Edwards key, and
signing is one of the purposes.  Missing: Edwards keys (`C91_algorithm_refuted`) and that there is no
other purpose (`C91_purpose_refuted`). -/
theorem C91_android_partial {env : Env} {alg : NV Alg} {sig b : Bytes} {rest : List Bytes}
    {o : AttestationObject} {raw hash : Bytes} {r : AttestationType × TrustedPath}
    (h : attest env (.androidKey alg sig (b :: rest)) (.attObj o) raw hash = .ok r) :
    ∃ cert pk ext kd l, env.loadCert b = .ok cert ∧ cert.publicKey = .ok pk ∧
      (SignedWith env alg.id sig (raw ++ hash) pk ∨ SignedWith env .EDDSA sig (raw ++ hash) pk) ∧
      ((∃ c x y, pk = .ec c x y) → SignedWith env alg.id sig (raw ++ hash) pk) ∧
      cert.keyAttestationExt = .ok (some ext) ∧ env.decodeDer Asn1.keyDescription ext = .ok kd ∧
      Component kd ["teeEnforced", "purpose"] (.set l) ∧ .integer 2 ∈ l := by
  obtain ⟨cert, ⟨b', rest', pk, acd, k, cpk, ext, kd, he, h1, h2, h3, -, -, -, -, h8, h9, -, -, -, -, l, g1,
    g2⟩, -⟩ := C22_android_key_exact.mp h
  cases he
  refine ⟨cert, pk, ext, kd, l, h1, h2, ?_, ?_, h8, h9, g1, g2⟩
  · cases h3 with
    | ec c x y h g1 g2 => exact .inl (.ecdsa _ h _ _ c x y g1 g2)
    | ed25519 raw h => exact .inr (.ed25519 _ _ raw h)
    | ed448 raw h => exact .inr (.ed448 _ _ raw h)
  · rintro ⟨c, x, y, rfl⟩
    cases h3 with
    | ec _ _ _ h g1 g2 => exact .ecdsa _ h _ _ c x y g1 g2

/-- C91: with the repair the statement is signed with the algorithm that it names. -/
theorem C91_repaired_algorithm (env : Env) : AlgorithmUsed Repaired.attestStrict env := by
  intro alg sig b rest o raw hash r h
  obtain ⟨certs, ⟨hch, cert, others, pk, acd, k, cpk, ext, kd, rfl, h2, h3, -⟩, -⟩ := C91_repaired_exact.mp h
  obtain ⟨h1, -⟩ := List.forall₂_cons.mp hch
  exact ⟨cert, pk, h1, h2, h3⟩

/-- C91: with the repair the key is for signing only. -/
theorem C91_repaired_purpose (env : Env) : PurposeIsSigning Repaired.attestStrict env := by
  intro alg sig b rest o raw hash r h
  obtain ⟨certs, ⟨hch, cert, others, pk, acd, k, cpk, ext, kd, rfl, h2, h3, h4, h5, h6, h7, h8, h9, h10, h11⟩,
    -⟩ := C91_repaired_exact.mp h
  obtain ⟨h1, -⟩ := List.forall₂_cons.mp hch
  exact ⟨cert, ext, kd, h1, h8, h9, h11⟩

/-- The purposes of a key description, by name and by tag number. -/
theorem signOnly_iff {d : KeyDesc} {v : Val} (h : Represents d v)
    (htee : d.tee.Pairwise fun e e' => e.1 < e'.1) : SignOnly v ↔ d.SignOnly := by
  obtain ⟨sw, tee, h1, h2, rfl⟩ := h
  unfold SignOnly KeyDesc.SignOnly
  refine exists_congr fun l => and_congr_left fun _ => ?_
  have m1 : (1, "purpose", Ty.setOf .integer) ∈ authEntries := mem_of_lookup rfl
  rw [← h2.lookup_iff authEntries_distinct htee m1]
  constructor
  · rintro ⟨cs, u, h, hl, cs', u', h', hl', rfl⟩
    cases h
    cases hl
    cases h'
    exact hl'
  · intro h
    exact ⟨_, _, rfl, rfl, _, _, rfl, h, rfl⟩

/-- C91: on bytes: when the extension of the first certificate holds a key description in DER, the
repaired `attest` accepts exactly if all certificates can be read, the signature is one of the named
algorithm by the key of the first, the keys are the same and the key description has, under its tag
numbers, what the standard asks for and no purpose but signing. -/
theorem C91_repaired_bytes {env : Env} (hl : DerLaw env) {alg : NV Alg} {sig certBytes : Bytes}
    {others : List Bytes} {o : AttestationObject} {raw hash : Bytes} {cert : Cert} {d : KeyDesc}
    {b rest : Bytes} (hcert : env.loadCert certBytes = .ok cert)
    (hext : cert.keyAttestationExt = .ok (some (b ++ rest))) (hd : KeyDescriptionOf d b)
    (r : AttestationType × TrustedPath) :
    Repaired.attestStrict env (.androidKey alg sig (certBytes :: others)) (.attObj o) raw hash = .ok r ↔
      (∃ pk acd k cpk, cert.publicKey = .ok pk ∧ SignedWith env alg.id sig (raw ++ hash) pk ∧
        o.authData.attested = some acd ∧ acd.credentialPublicKey = some k ∧ KeyOf env k cpk ∧
        env.spki cpk = env.spki pk) ∧
      d.Ok hash ∧ d.SignOnly ∧ ∃ certs, ChainOf env others certs ∧ r = (.BASIC, some (cert :: certs)) := by
  obtain ⟨v, g1, g2⟩ := keyDescription_der hd
  have hv := hl v b rest g1
  obtain ⟨_, _, _, _, _, _, _, _, _, _, _, _, _, _, hs, ht, _⟩ := hd
  have hk := keyDescriptionOk_iff g2 hs.1 ht.1 hash
  have hp := signOnly_iff g2 ht.1
  rw [C91_repaired_exact]
  constructor
  · rintro ⟨_, ⟨hch, cert', others', pk, acd, k, cpk, ext, kd, rfl, h2, h3, h4, h5, h6, h7, h8, h9, h10, h11⟩,
      rfl⟩
    obtain ⟨h1, h12⟩ := List.forall₂_cons.mp hch
    rw [hcert] at h1
    cases h1
    rw [hext] at h8
    cases h8
    rw [hv] at h9
    cases h9
    exact ⟨⟨pk, acd, k, cpk, h2, h3, h4, h5, h6, h7⟩, hk.mp h10, hp.mp h11, others', h12, rfl⟩
  · rintro ⟨⟨pk, acd, k, cpk, h2, h3, h4, h5, h6, h7⟩, h10, h11, others', h12, rfl⟩
    exact ⟨_, ⟨.cons hcert h12, cert, others', pk, acd, k, cpk, b ++ rest, v, rfl, h2, h3, h4, h5, h6, h7, hext,
      hv, hk.mpr h10, hp.mpr h11⟩, rfl⟩

/-! ## Examples -/

namespace Android

/-- Two certificates: the one of the key, and one that might be of who issued it. -/
def chain : List Bytes := [0x30 :: 7 :: ext, [0x30, 8]]

def issuer : Cert := ⟨0, .ok (.ec .SECP256R1 8 1), .error .extensionNotFound⟩

theorem chain_of : ChainOf Demo.env chain [cert, issuer] := .cons rfl (.cons rfl .nil)

/-- `attest` passes on the first only. -/
theorem chain_taken : attest Demo.env (.androidKey (.value .ES256) sig chain) (.attObj att) raw hash =
    .ok (.BASIC, some [cert]) := C22_android_key_exact.mpr ⟨cert, by
  refine ⟨_, _, .ec .SECP256R1 7 1, _, key, .ec .SECP256R1 7 1, ext, kd, rfl, rfl, rfl,
    .ec _ _ _ .SHA256 .es256 (Demo.check_sign _ _), rfl, rfl, ?_, rfl, rfl, rfl, kd_ok⟩
  exact .ec2 _ _ _ _ _ _ _ .p256 (Demo.bigEndian_of rfl) (Demo.bigEndian_of rfl) rfl, rfl⟩

theorem kd_signOnly : SignOnly kd :=
  ⟨[.integer 2], ⟨_, _, rfl, rfl, _, _, rfl, rfl, rfl⟩, by simp, by simp⟩

/-- The chain is valid to the letter. -/
theorem strict : AndroidStrict Demo.env .ES256 sig chain att.authData raw hash [cert, issuer] := by
  refine ⟨chain_of, cert, [issuer], .ec .SECP256R1 7 1, _, key, .ec .SECP256R1 7 1, ext, kd, rfl, rfl,
    .ecdsa _ .SHA256 _ _ _ _ _ .es256 (Demo.check_sign _ _), rfl, rfl, ?_, rfl, rfl, rfl, kd_ok, kd_signOnly⟩
  exact .ec2 _ _ _ _ _ _ _ .p256 (Demo.bigEndian_of rfl) (Demo.bigEndian_of rfl) rfl

/-- A key for decrypting (1) and signing (2). -/
def ext2 : Bytes :=
  [0x30, 0x28, 0x02, 1, 3, 0x0a, 1, 1, 0x02, 1, 4, 0x0a, 1, 1, 0x04, 3, 1, 2, 3, 0x04, 0, 0x30, 0,
    0x30, 0x11, 0xa1, 8, 0x31, 6, 0x02, 1, 1, 0x02, 1, 2, 0xbf, 0x85, 0x3e, 3, 0x02, 1, 0]

def kd2 : Asn1.Val := .sequence [("attestationVersion", .integer 3),
  ("attestationSecurityLevel", .enumerated 1), ("keymasterVersion", .integer 4),
  ("keymasterSecurityLevel", .enumerated 1), ("attestationChallenge", .octets hash),
  ("uniqueId", .octets []), ("softwareEnforced", .sequence []),
  ("teeEnforced", .sequence [("purpose", .set [.integer 1, .integer 2]), ("origin", .integer 0)])]

theorem kd2_ok : KeyDescriptionOk kd2 hash := by
  refine ⟨⟨_, _, rfl, rfl, rfl⟩, ?_, ?_, ⟨_, _, rfl, rfl, _, _, rfl, rfl, rfl⟩,
    [.integer 1, .integer 2], ⟨_, _, rfl, rfl, _, _, rfl, rfl, rfl⟩, by simp⟩
  · rintro w ⟨cs, u, h1, h2, cs', u', h3, h4, -⟩
    cases h1
    cases h2
    cases h3
    cases h4
  · rintro w ⟨cs, u, h1, h2, cs', u', h3, h4, -⟩
    cases h1
    cases h2
    cases h3
    cases h4

theorem ext2_taken : attest Demo.env (.androidKey (.value .ES256) sig [0x30 :: 7 :: ext2]) (.attObj att) raw
    hash = .ok (.BASIC, some [⟨beNat ext2, .ok (.ec .SECP256R1 7 1), .ok (some ext2)⟩]) :=
  C22_android_key_exact.mpr ⟨_, by
    refine ⟨_, _, .ec .SECP256R1 7 1, _, key, .ec .SECP256R1 7 1, ext2, kd2, rfl, rfl, rfl,
      .ec _ _ _ .SHA256 .es256 (Demo.check_sign _ _), rfl, rfl, ?_, rfl, rfl, rfl, kd2_ok⟩
    exact .ec2 _ _ _ _ _ _ _ .p256 (Demo.bigEndian_of rfl) (Demo.bigEndian_of rfl) rfl, rfl⟩

def edKey : CPK := .okp { kty := .value .OKP, alg := some (.value .EDDSA) } (.value .ED25519) [7]

def edAtt : AttestationObject :=
  ⟨⟨Demo.rpHash, 0x45, 1, some ⟨List.replicate 16 0xaa, 4, Demo.credId, some edKey⟩, none⟩,
    .ANDROID_KEY, .none⟩

def edSig : Bytes := Demo.sign (.ed25519 [7]) (raw ++ hash)

def edCert : Cert := ⟨beNat ext, .ok (.ed25519 [7]), .ok (some ext)⟩

/-- Whatever algorithm the statement names. -/
theorem ed_taken (alg : Alg) : attest Demo.env (.androidKey (.value alg) edSig [0x31 :: 7 :: ext]) (.attObj edAtt)
    raw hash = .ok (.BASIC, some [edCert]) :=
  C22_android_key_exact.mpr ⟨edCert, ⟨_, _, .ed25519 [7], _, edKey, .ed25519 [7], ext, kd, rfl, rfl, rfl,
    .ed25519 [7] (Demo.check_sign _ _), rfl, rfl, .ed25519 _ _ _ rfl rfl, rfl, rfl, rfl, kd_ok⟩, rfl⟩

/-- With the algorithm of the key it is valid to the letter. -/
theorem ed_strict : AndroidStrict Demo.env .EDDSA edSig [0x31 :: 7 :: ext] edAtt.authData raw hash [edCert] :=
  ⟨.cons rfl .nil, edCert, [], .ed25519 [7], _, edKey, .ed25519 [7], ext, kd, rfl, rfl,
    .ed25519 _ _ [7] (Demo.check_sign _ _), rfl, rfl, .ed25519 _ _ _ rfl rfl, rfl, rfl, rfl, kd_ok,
    kd_signOnly⟩

end Android

/-- C90 is false of the package: of a chain of two certificates the trust path has the first only. -/
theorem C90_trust_path_refuted : ¬ PathIsChain attest Demo.env := by
  intro h
  obtain ⟨certs, h1, h2⟩ := h _ _ _ _ _ _ _ (.androidKey _ _ _) Android.chain_taken
  cases h1
  exact absurd h2.length_eq (by decide)

/-- C91 is false of the package: with an Edwards key the algorithm of the statement is not looked at. -/
theorem C91_algorithm_refuted : ¬ AlgorithmUsed attest Demo.env := by
  intro h
  obtain ⟨cert, pk, h1, h2, h3⟩ := h _ _ _ _ _ _ _ _ (Android.ed_taken .ES256)
  cases h1
  cases h2
  cases h3

/-- C91 is false of the package: a key may have other purposes beside signing. -/
theorem C91_purpose_refuted : ¬ PurposeIsSigning attest Demo.env := by
  intro h
  obtain ⟨cert, ext, kd, h1, h2, h3, l, h4, -, h5⟩ := h _ _ _ _ _ _ _ _ Android.ext2_taken
  cases h1
  cases h2
  obtain rfl : kd = Android.kd2 := (Except.ok.inj h3).symm
  have : Component Android.kd2 ["teeEnforced", "purpose"] (.set [.integer 1, .integer 2]) :=
    ⟨_, _, rfl, rfl, _, _, rfl, rfl, rfl⟩
  cases component_unique h4 this
  simp at h5

example : ∃ certs, some [Android.cert] = some certs ∧ ChainOf Demo.env [0x30 :: 7 :: Android.ext] certs :=
  C90_trust_path_partial (s := .androidKey (.value .ES256) Android.sig [0x30 :: 7 :: Android.ext])
    (raw := Android.raw) (hash := Android.hash) (o := Android.att) (.androidKey _ _ _) (by simp)
    (C90_rest_ignored Demo.env _ _ _ _ [[0x30, 8]] _ _ _ ▸ Android.chain_taken)

/-- The repaired package takes the chain, and passes all of it on. -/
example : Repaired.attestStrict Demo.env (.androidKey (.value .ES256) Android.sig Android.chain)
    (.attObj Android.att) Android.raw Android.hash = .ok (.BASIC, some [Android.cert, Android.issuer]) :=
  C91_repaired_exact.mpr ⟨_, Android.strict, rfl⟩

/-- It does not take what is not a chain. -/
example (r : AttestationType × TrustedPath) :
    Repaired.attestStrict Demo.env (.androidKey (.value .ES256) Android.sig Android.x5c)
      (.attObj Android.att) Android.raw Android.hash ≠ .ok r := by
  intro h
  obtain ⟨certs, ⟨hc, -⟩, -⟩ := C91_repaired_exact.mp h
  obtain ⟨c, cs, -, h2, -⟩ := List.forall₂_cons_left_iff.mp hc
  obtain ⟨c', cs', h3, -⟩ := List.forall₂_cons_left_iff.mp h2
  cases h3

/-- Nor another algorithm than that of the key, -/
example (r : AttestationType × TrustedPath) :
    Repaired.attestStrict Demo.env (.androidKey (.value .ES256) Android.edSig [0x31 :: 7 :: Android.ext])
      (.attObj Android.edAtt) Android.raw Android.hash ≠ .ok r := by
  intro h
  obtain ⟨cert, pk, h1, h2, h3⟩ := C91_repaired_algorithm _ _ _ _ _ _ _ _ _ h
  cases h1
  cases h2
  cases h3

example : Repaired.attestStrict Demo.env
    (.androidKey (.value .EDDSA) Android.edSig [0x31 :: 7 :: Android.ext])
    (.attObj Android.edAtt) Android.raw Android.hash = .ok (.BASIC, some [Android.edCert]) :=
  C91_repaired_exact.mpr ⟨_, Android.ed_strict, rfl⟩

/-- On bytes, with the chain. -/
example : Repaired.attestStrict Demo.env (.androidKey (.value .ES256) Android.sig Android.chain)
    (.attObj Android.att) Android.raw Android.hash = .ok (.BASIC, some [Android.cert, Android.issuer]) :=
  (C91_repaired_bytes Demo.der (d := Android.desc) (b := Android.ext) (rest := []) (cert := Android.cert)
    rfl rfl Android.desc_ext _).mpr
    ⟨⟨.ec .SECP256R1 7 1, _, Android.key, .ec .SECP256R1 7 1, rfl,
      .ecdsa _ .SHA256 _ _ _ _ _ .es256 (Demo.check_sign _ _), rfl, rfl,
      .ec2 _ _ _ _ _ _ _ .p256 (Demo.bigEndian_of rfl) (Demo.bigEndian_of rfl) rfl, rfl⟩,
      Android.desc_ok, ⟨_, .head _, by simp, by simp⟩, [Android.issuer], .cons rfl .nil, rfl⟩

end WebAuthn.Props
