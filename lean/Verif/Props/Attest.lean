import Verif.Lemmas.Attest
import Verif.Spec.Registrar
import Verif.Props.Demo

/-!
# Attestation statements (C19 - C23)
-/

namespace WebAuthn.Props

open WebAuthn WebAuthn.Spec

/-! ## A FIDO U2F registration in the world of `Props/Demo.lean` -/

namespace U2F

/-- The certificate, and the object it loads to. -/
def certBytes : Bytes := [0x30, 7]

def cert : Cert := ⟨0, .ok (.ec .SECP256R1 7 1), .error .extensionNotFound⟩

theorem load_cert : Demo.env.loadCert certBytes = .ok cert := rfl

/-- The U2F registration message. -/
def message : Bytes :=
  [0x00] ++ Demo.rpHash ++ Demo.sha Demo.regCdj ++ Demo.credId ++ [0x04] ++ Demo.x ++ Demo.y

def sig : Bytes := Demo.sign (.ec .SECP256R1 7 1) message

theorem sig_length : sig.length = 40 := by
  have h : ∀ b, (Demo.sha b).length = 32 := Demo.sha_length
  simp [sig, Demo.sign, h, Cbor.toBE_length]

def stmtMap : Dict := [(.str "sig", .bytes sig), (.str "x5c", .list [.bytes certBytes])]

def objMap : Dict :=
  [(.str "fmt", .str "fido-u2f"), (.str "attStmt", .dict stmtMap),
   (.str "authData", .bytes Demo.regRaw)]

theorem plain : Plain (.dict objMap) := by
  refine .dict _ ?_ (by simp [objMap]) ?_
  · intro kv hkv
    simp only [objMap, List.mem_cons, List.not_mem_nil, or_false] at hkv
    rcases hkv with rfl | rfl | rfl <;> exact Or.inr ⟨_, rfl⟩
  · intro kv hkv
    simp only [objMap, List.mem_cons, List.not_mem_nil, or_false] at hkv
    rcases hkv with rfl | rfl | rfl
    · exact .str _
    · refine .dict _ ?_ (by simp [stmtMap]) ?_
      · intro kv hkv
        simp only [stmtMap, List.mem_cons, List.not_mem_nil, or_false] at hkv
        rcases hkv with rfl | rfl <;> exact Or.inr ⟨_, rfl⟩
      · intro kv hkv
        simp only [stmtMap, List.mem_cons, List.not_mem_nil, or_false] at hkv
        rcases hkv with rfl | rfl
        · exact .bytes _
        · refine .list _ fun v hv => ?_
          simp only [List.mem_cons, List.not_mem_nil, or_false] at hv
          subst hv
          exact .bytes _
    · exact .bytes _

theorem encodes : ∃ b, Cbor.enc (.dict objMap) = .ok b := by
  refine Cbor.enc_dict (by simp [objMap]) fun kv hkv => ?_
  simp only [objMap, List.mem_cons, List.not_mem_nil, or_false] at hkv
  rcases hkv with rfl | rfl | rfl
  · exact ⟨Cbor.enc_str (by decide), Cbor.enc_str (by decide)⟩
  · refine ⟨Cbor.enc_str (by decide), Cbor.enc_dict (by simp [stmtMap]) fun kv hkv => ?_⟩
    simp only [stmtMap, List.mem_cons, List.not_mem_nil, or_false] at hkv
    rcases hkv with rfl | rfl
    · exact ⟨Cbor.enc_str (by decide), Cbor.enc_bytes (by rw [sig_length]; decide)⟩
    · refine ⟨Cbor.enc_str (by decide), Cbor.enc_list (by simp) fun v hv => ?_⟩
      simp only [List.mem_cons, List.not_mem_nil, or_false] at hv
      subst hv
      exact Cbor.enc_bytes (by decide)
  · exact ⟨Cbor.enc_str (by decide), Cbor.enc_bytes Demo.regRaw_length⟩

def obj : Bytes := (Cbor.enc (.dict objMap)).toOption.getD []

theorem obj_eq : Cbor.enc (.dict objMap) = .ok obj := by
  obtain ⟨b, hb⟩ := encodes
  rw [obj, hb]
  rfl

/-- The parsed attestation object. -/
def att : AttestationObject := ⟨Demo.regAd, .FIDO_U2F, .fidoU2F sig [certBytes]⟩

theorem lookupObj {n : String} {v : PyVal} (h : objMap.get? (.str n) = some v) :
    Lookup objMap (.str n) v := lookup_iff.mpr h

theorem lookupStmt {n : String} {v : PyVal} (h : stmtMap.get? (.str n) = some v) :
    Lookup stmtMap (.str n) v := lookup_iff.mpr h

theorem stmt_of : AttStmtOf .FIDO_U2F stmtMap (.fidoU2F sig [certBytes]) := by
  refine ⟨rfl, ?_, lookupStmt rfl, ?_⟩
  · intro kv hkv
    simp only [stmtMap, List.mem_cons, List.not_mem_nil, or_false] at hkv
    rcases hkv with rfl | rfl
    · exact ⟨"sig", by simp, rfl⟩
    · exact ⟨"x5c", by simp, rfl⟩
  · exact Or.inl (lookupStmt rfl)

theorem obj_of : AttObjOf Demo.env obj att Demo.regRaw := by
  have := Demo.codec.roundTrip plain obj_eq []
  rw [List.append_nil] at this
  exact ⟨objMap, [], stmtMap, this, lookupObj rfl, encodedAuthData_of Demo.codec Demo.regRaw_enc,
    lookupObj rfl, lookupObj rfl, stmt_of⟩

/-- The signature is valid. -/
theorem valid : U2FOk Demo.env sig [certBytes] att.authData (Demo.env.sha256 Demo.regCdj) cert := by
  refine ⟨certBytes, 7, 1, Demo.attested, _, Demo.x, Demo.y, _, rfl, rfl, rfl, rfl, rfl, ?_⟩
  exact Demo.check_sign _ message

def args : AttestationArgs :=
  { Demo.regArgs with
    credential := { Demo.regCredential with response := .attestation Demo.regCdj obj } }

theorem response_ok : AttestationOk Demo.env args att Demo.regRaw := by
  refine ⟨Demo.regCdj, obj, rfl, ?_, obj_of, ⟨encodedAuthData_of Demo.codec Demo.regRaw_enc,
    Demo.rpHash_enc Demo.regRaw_enc rfl, Demo.flagSet_enc Demo.regRaw_enc (by decide),
    fun _ => Demo.flagSet_enc Demo.regRaw_enc (by decide), by intro l hl; cases hl⟩, by
      intro h; cases h⟩
  exact clientOk_of Demo.json (clientData_client rfl) Demo.challengeText_ok
    (originAllowed_of Demo.expected_ok (by simp [originList, args, Demo.regArgs])) .none

end U2F

/-! ## C21 -/

/-- C21: a FIDO U2F statement is accepted exactly if it is valid, with type BASIC
and the certificate as trust path. -/
theorem C21_fido_u2f_exact {env : Env} {sig : Bytes} {x5c : List Bytes} {o : AttestationObject}
    {raw hash : Bytes} {r : AttestationType × TrustedPath} :
    attest env (.fidoU2F sig x5c) (.attObj o) raw hash = .ok r ↔
      ∃ cert, U2FOk env sig x5c o.authData hash cert ∧ r = (.BASIC, some [cert]) :=
  attestFidoU2F_ok_iff

example : attest Demo.env (.fidoU2F U2F.sig [U2F.certBytes]) (.attObj U2F.att) Demo.regRaw
    (Demo.env.sha256 Demo.regCdj) = .ok (.BASIC, some [U2F.cert]) :=
  C21_fido_u2f_exact.mpr ⟨_, U2F.valid, rfl⟩

/-- C21: a statement that is wrongly signed is an
`AttestationError`. -/
theorem C21_fido_u2f_wrong_signature {env : Env} {sig : Bytes} {x5c : List Bytes}
    {o : AttestationObject} {raw hash : Bytes} {certBytes : Bytes} {cert : Cert} {cx cy : Nat}
    {acd : AttestedCredentialData} {b : KeyBase} {x y : Bytes} {crv : NV Curve}
    (h1 : x5c = [certBytes]) (h2 : env.loadCert certBytes = .ok cert)
    (h3 : cert.publicKey = .ok (.ec .SECP256R1 cx cy)) (h4 : o.authData.attested = some acd)
    (h5 : acd.credentialPublicKey = some (.ec2 b x y crv))
    (h6 : env.ecdsaVerify (.ec .SECP256R1 cx cy) .SHA256 sig
      ([0x00] ++ o.authData.rpIdHash ++ hash ++ acd.credentialId ++ [0x04] ++ x ++ y) =
        .error .invalidSignature) :
    attest env (.fidoU2F sig x5c) (.attObj o) raw hash = .error (.lib .attestation) := by
  subst h1
  have e : [(0 : UInt8)] ++ o.authData.rpIdHash ++ (hash ++ acd.credentialId ++ ([4] ++ (x ++ y))) =
      [0x00] ++ o.authData.rpIdHash ++ hash ++ acd.credentialId ++ [0x04] ++ x ++ y := by simp
  simp only [attest, attestFidoU2F, h2, h3, catching, bind, Except.bind, AttObjArg.authData,
    attestedOf, h4, h5, keyXY, require, beq_self_eq_true, if_true, e, h6, isInvalidSignature]

/-! ## C22 -/

/-- C22: an Android key statement is accepted exactly if it is valid, with type
BASIC and the first certificate as trust path. -/
theorem C22_android_key_exact {env : Env} {alg : NV Alg} {sig : Bytes} {x5c : List Bytes}
    {o : AttestationObject} {raw hash : Bytes} {r : AttestationType × TrustedPath} :
    attest env (.androidKey alg sig x5c) (.attObj o) raw hash = .ok r ↔
      ∃ cert, AndroidOk env alg.id sig x5c o.authData raw hash cert ∧
        r = (.BASIC, some [cert]) :=
  attestAndroidKey_ok_iff

/-- C22: if public keys with the same encoding are equal, the credential key is
the key of the first certificate. -/
theorem C22_android_same_key {env : Env} (hinj : ∀ k k', env.spki k = env.spki k' → k = k')
    {alg : NV Alg} {sig : Bytes} {x5c : List Bytes} {o : AttestationObject} {raw hash : Bytes}
    {r : AttestationType × TrustedPath}
    (h : attest env (.androidKey alg sig x5c) (.attObj o) raw hash = .ok r) :
    ∃ cert pk acd k, (∃ cb others, x5c = cb :: others ∧ env.loadCert cb = .ok cert) ∧
      cert.publicKey = .ok pk ∧ o.authData.attested = some acd ∧
      acd.credentialPublicKey = some k ∧ KeyOf env k pk := by
  obtain ⟨cert, ⟨cb, others, pk, acd, k, cpk, ext, kd, h1, h2, h3, -, h4, h5, h6, h7, -⟩, -⟩ :=
    C22_android_key_exact.mp h
  refine ⟨cert, pk, acd, k, ⟨cb, others, h1, h2⟩, h3, h4, h5, ?_⟩
  rw [← hinj _ _ h7]
  exact h6

namespace Android

/-- A credential key that is the key of the certificate: `x = 7`, `y = 1`. -/
def key : CPK := .ec2 { kty := .value .EC2, alg := some (.value .ES256) }
  (List.replicate 31 0 ++ [7]) (List.replicate 31 0 ++ [1]) (.value .P_256)

def att : AttestationObject :=
  ⟨⟨Demo.rpHash, 0x45, 1, some ⟨List.replicate 16 0xaa, 4, Demo.credId, some key⟩, none⟩,
    .ANDROID_KEY, .none⟩

def hash : Bytes := [1, 2, 3]
def raw : Bytes := [4, 5]
def sig : Bytes := Demo.sign (.ec .SECP256R1 7 1) (raw ++ hash)

/-- A key description: version 3, levels 1, the challenge, no unique id, nothing
enforced by software, a key for signing (tag 1) generated (tag 702) in the
hardware. -/
def ext : Bytes :=
  [0x30, 0x25, 0x02, 1, 3, 0x0a, 1, 1, 0x02, 1, 4, 0x0a, 1, 1, 0x04, 3, 1, 2, 3, 0x04, 0, 0x30, 0,
    0x30, 0x0e, 0xa1, 5, 0x31, 3, 0x02, 1, 2, 0xbf, 0x85, 0x3e, 3, 0x02, 1, 0]

/-- Its value. -/
def kd : Asn1.Val := .sequence [("attestationVersion", .integer 3),
  ("attestationSecurityLevel", .enumerated 1), ("keymasterVersion", .integer 4),
  ("keymasterSecurityLevel", .enumerated 1), ("attestationChallenge", .octets hash),
  ("uniqueId", .octets []), ("softwareEnforced", .sequence []),
  ("teeEnforced", .sequence [("purpose", .set [.integer 2]), ("origin", .integer 0)])]

def x5c : List Bytes := [0x30 :: 7 :: ext, [9]]
def cert : Cert := ⟨beNat ext, .ok (.ec .SECP256R1 7 1), .ok (some ext)⟩

theorem kd_ok : KeyDescriptionOk kd hash := by
  refine ⟨⟨_, _, rfl, rfl, rfl⟩, ?_, ?_, ⟨_, _, rfl, rfl, _, _, rfl, rfl, rfl⟩,
    [.integer 2], ⟨_, _, rfl, rfl, _, _, rfl, rfl, rfl⟩, by simp⟩
  · rintro w ⟨cs, u, h1, h2, cs', u', h3, h4, -⟩
    cases h1
    cases h2
    cases h3
    cases h4
  · rintro w ⟨cs, u, h1, h2, cs', u', h3, h4, -⟩
    cases h1
    cases h2
    cases h3
    cases h4

theorem valid : AndroidOk Demo.env .ES256 sig x5c att.authData raw hash cert := by
  refine ⟨_, _, .ec .SECP256R1 7 1, _, key, .ec .SECP256R1 7 1, ext, kd, rfl, rfl, rfl,
    .ec _ _ _ .SHA256 .es256 (Demo.check_sign _ _), rfl, rfl, ?_, rfl, rfl, rfl, kd_ok⟩
  exact .ec2 _ _ _ _ _ _ _ .p256 (Demo.bigEndian_of rfl) (Demo.bigEndian_of rfl) rfl

end Android

example : attest Demo.env (.androidKey (.value .ES256) Android.sig Android.x5c) (.attObj Android.att)
    Android.raw Android.hash = .ok (.BASIC, some [Android.cert]) :=
  C22_android_key_exact.mpr ⟨_, Android.valid, rfl⟩

/-! ## C23 -/

/-- A packed, TPM or SafetyNet statement. -/
def Unimplemented (s : AttStmt) : Prop :=
  s ≠ .none ∧ (∀ sig x5c, s ≠ .fidoU2F sig x5c) ∧ ∀ alg sig x5c, s ≠ .androidKey alg sig x5c

/-- C23: `attest` raises `UnimplementedError` for them, whatever it is passed. -/
theorem C23_unimplemented_refused {env : Env} {s : AttStmt} (h : Unimplemented s) (o : AttObjArg)
    (raw hash : Bytes) : attest env s o raw hash = .error (.lib .unimplemented) := by
  obtain ⟨h1, h2, h3⟩ := h
  cases s with
  | none => exact absurd rfl h1
  | fidoU2F sig x5c => exact absurd rfl (h2 sig x5c)
  | androidKey alg sig x5c => exact absurd rfl (h3 alg sig x5c)
  | _ => rfl

example : Unimplemented (.packedX509 (.value .ES256) [1] [[2]]) := by simp [Unimplemented]

/-- A registration whose statement is not `none` never succeeds and does not
change the state of the registrar. -/
theorem not_none_refused {σ : Type} {env : Env} {reg : Registrar σ} {a : AttestationArgs} {s : σ}
    {o : AttestationObject} {raw cdj ob : Bytes}
    (hr : a.credential.response = .attestation cdj ob) (ho : AttObjOf env ob o raw)
    (hs : o.attStmt ≠ .none) :
    ∃ e, handleAttestation env reg a s = (.error e, s) := by
  cases h : attestationChecks env a with
  | error e =>
    have : ∃ e', finalise (.error e : Py Unit) = .error e' := by
      cases hf : finalise (.error e : Py Unit) with
      | ok u => rw [finalise_ok_iff] at hf; cases hf
      | error e' => exact ⟨e', rfl⟩
    obtain ⟨e', he'⟩ := this
    exact ⟨e', by simp only [handleAttestation, h, he']⟩
  | ok r =>
    obtain ⟨-, ⟨raw', cdj', ob', h1, -, h2, -⟩, h3, -⟩ := attestationChecks_ok_iff.mp h
    rw [hr] at h1
    cases h1
    rw [← parseAttestationObject_ok_iff] at ho h2
    rw [ho] at h2
    cases h2
    exact absurd h3 hs

/-- C23: a registration that carries such a statement fails and does not change
the state of the registrar. -/
theorem C23_unimplemented_not_registered {σ : Type} {env : Env} {reg : Registrar σ}
    {a : AttestationArgs} {s : σ} {o : AttestationObject} {raw cdj ob : Bytes}
    (hr : a.credential.response = .attestation cdj ob) (ho : AttObjOf env ob o raw)
    (hs : Unimplemented o.attStmt) :
    ∃ e, handleAttestation env reg a s = (.error e, s) := not_none_refused hr ho hs.1

/-! ## C19 -/

/-- C19: every valid statement of a supported format can be registered. -/
def SupportedFormatsAccepted (env : Env) : Prop :=
  ∀ (σ : Type) (reg : Registrar σ) (a : AttestationArgs) (s : σ) (o : AttestationObject)
    (raw cdj ob : Bytes),
    ExpectedOk env a.expectedOrigin → a.credential.response = .attestation cdj ob →
    AttestationOk env a o raw → StatementOk env o.attStmt o.authData raw (env.sha256 cdj) →
    (∀ r, ∃ s', reg.registerAttestation r s = (.ok none, s')) →
    ∃ s', handleAttestation env reg a s = (.ok (), s')

/-- C19 restricted to `none` statements.  Missing: FIDO U2F and Android key. -/
theorem C19_none_accepted_partial {σ : Type} {env : Env} {reg : Registrar σ} {a : AttestationArgs}
    {s : σ} {o : AttestationObject} {raw : Bytes} (h1 : ExpectedOk env a.expectedOrigin)
    (h2 : AttestationOk env a o raw) (h3 : o.attStmt = .none)
    (h4 : ∀ r, ∃ s', reg.registerAttestation r s = (.ok none, s')) :
    ∃ s', handleAttestation env reg a s = (.ok (), s') := by
  obtain ⟨s', h5⟩ := h4 ⟨a.credential, o, .NONE, a.user, a.rp, none⟩
  exact ⟨s', attestation_accepts.mpr ⟨h1, o, raw, h2, h3, h5⟩⟩

/-- C19 fails for every valid FIDO U2F registration: `InternalError`, because the
backend passes the credential key where `attest` expects the attestation object
(backends.py 203-206). -/
theorem C19_u2f_refused {σ : Type} {env : Env} {reg : Registrar σ} {a : AttestationArgs} {s : σ}
    {o : AttestationObject} {raw cdj ob sig : Bytes} {x5c : List Bytes} {cert : Cert}
    (h1 : ExpectedOk env a.expectedOrigin) (hr : a.credential.response = .attestation cdj ob)
    (h2 : AttestationOk env a o raw) (h3 : o.attStmt = .fidoU2F sig x5c)
    (h4 : U2FOk env sig x5c o.authData (env.sha256 cdj) cert) :
    handleAttestation env reg a s = (.error (.lib .internal), s) := by
  obtain ⟨allowed, ha⟩ := expectedOk_iff.mp h1
  obtain ⟨cdj', ob', h5, h6, h7, h8, h9⟩ := h2
  rw [hr] at h5
  cases h5
  obtain ⟨acd, h9⟩ := Option.ne_none_iff_exists'.mp h9
  obtain ⟨cb, cx, cy, -, -, -, -, -, rfl, h10, h11, -⟩ := h4
  have hatt : ∀ k, attest env o.attStmt (.key k) raw (env.sha256 cdj) = .error .attributeError := by
    intro k
    rw [h3]
    simp only [attest, attestFidoU2F, h10, catching, bind, Except.bind, h11, require,
      beq_self_eq_true, if_true, AttObjArg.authData]
  have hc : attestationChecks env a = .error .attributeError := by
    simp only [attestationChecks, ha, hr, Response.clientDataJSON, Response.attestationObject,
      (checkClientData_ok_iff (u := ()) ha).mpr h6, parseAttestationObject_ok_iff.mpr h7,
      (checkAuthData_ok_iff (u := ()) h8.1).mpr h8, attestedOf, h9, hatt, bind, Except.bind]
  simp only [handleAttestation, hc]
  rfl

/-- C19 is false: a concrete FIDO U2F registration, valid in every respect, is
refused. -/
theorem C19_supported_formats_refuted :
    CodecLaws Demo.env ∧ JsonLaw Demo.env ∧ ¬ SupportedFormatsAccepted Demo.env := by
  refine ⟨Demo.codec, Demo.json, fun h => ?_⟩
  let reg : Registrar Unit := ⟨fun _ s => (.ok none, s), fun _ s => (.ok none, s),
    fun _ s => (.ok none, s)⟩
  obtain ⟨s', hs⟩ := h Unit reg U2F.args () U2F.att Demo.regRaw Demo.regCdj U2F.obj
    Demo.expected_ok rfl U2F.response_ok (Or.inr (Or.inl ⟨_, _, _, rfl, U2F.valid⟩))
    (fun r => ⟨(), rfl⟩)
  rw [C19_u2f_refused Demo.expected_ok rfl U2F.response_ok rfl U2F.valid] at hs
  cases hs

/-! ## C20 -/

/-- C20: whatever a successful registration hands to the registrar has the
attested credential id as its raw id. -/
def RawIdAttested (env : Env) : Prop :=
  ∀ (σ : Type) (reg : Registrar σ) (a : AttestationArgs) (s s' : σ) (log : List Call),
    handleAttestation env (recording reg) a (s, []) = (.ok (), s', log) →
    ∀ r, .attestation r ∈ log →
      ∃ acd, r.att.authData.attested = some acd ∧ acd.credentialId = r.credential.rawId

/-- What holds of C20: the registrar gets the presented credential together with
the attestation object that is in its response, so it can compare the two ids.
Missing: that they are equal. -/
theorem C20_registrar_can_compare_partial {σ : Type} {env : Env} {reg : Registrar σ}
    {a : AttestationArgs} {s s' : σ} {log : List Call}
    (h : handleAttestation env (recording reg) a (s, []) = (.ok (), s', log)) :
    ∃ r acd raw cdj ob, log = [.attestation r] ∧
      r.credential = a.credential ∧ a.credential.response = .attestation cdj ob ∧
      AttObjOf env ob r.att raw ∧ r.att.authData.attested = some acd := by
  obtain ⟨-, o, raw, ⟨cdj, ob, h1, -, h2, -, h3⟩, -, h4⟩ := attestation_accepts.mp h
  obtain ⟨acd, h3⟩ := Option.ne_none_iff_exists'.mp h3
  simp only [recording, Prod.mk.injEq, List.nil_append] at h4
  exact ⟨_, acd, raw, cdj, ob, h4.2.2.symm, rfl, h1, h2, h3⟩

/-- C20 for a registrar that refuses a raw id that is not the attested one. -/
theorem C20_checking_registrar {σ : Type} {env : Env} {reg : Registrar σ}
    (hreg : ∀ r s s' acd, reg.registerAttestation r s = (.ok none, s') →
      r.att.authData.attested = some acd → acd.credentialId = r.credential.rawId)
    {a : AttestationArgs} {s s' : σ} {log : List Call}
    (h : handleAttestation env (recording reg) a (s, []) = (.ok (), s', log)) {r : AttestationRecord}
    (hr : .attestation r ∈ log) :
    ∃ acd, r.att.authData.attested = some acd ∧ acd.credentialId = r.credential.rawId := by
  obtain ⟨-, o, raw, ⟨cdj, ob, h1, -, h2, -, h3⟩, -, h4⟩ := attestation_accepts.mp h
  obtain ⟨acd, h3⟩ := Option.ne_none_iff_exists'.mp h3
  simp only [recording, Prod.mk.injEq, List.nil_append] at h4
  rw [← h4.2.2, List.mem_singleton] at hr
  cases hr
  exact ⟨acd, h3, hreg _ _ _ acd (Prod.ext h4.1 rfl) h3⟩

/-- The demo registrar with that comparison. -/
def comparing : Registrar Demo.Store :=
  { Demo.registrar with
    registerAttestation := fun r s =>
      if r.att.authData.attested.map (·.credentialId) = some r.credential.rawId then
        Demo.registrar.registerAttestation r s
      else (.ok (some "other id"), s) }

/-- It meets the hypothesis of `C20_checking_registrar`. -/
theorem comparing_compares (r : AttestationRecord) (s s' : Demo.Store)
    (acd : AttestedCredentialData) (h : comparing.registerAttestation r s = (.ok none, s'))
    (ha : r.att.authData.attested = some acd) : acd.credentialId = r.credential.rawId := by
  simp only [comparing, ha, Option.map_some] at h
  split_ifs at h with hc
  · simpa using hc
  · cases h

/-- And it takes the demo registration. -/
example : handleAttestation Demo.env comparing Demo.regArgs [] =
    (.ok (), [(Demo.credId, Demo.stored 1)]) :=
  C52_honest_registration Demo.codec Demo.json (a := Demo.regArgs) rfl
    (clientData_client rfl) Demo.challengeText_ok
    Demo.attObj_enc Demo.regRaw_enc rfl (Demo.rpHash_enc Demo.regRaw_enc rfl)
    (Demo.flagSet_enc Demo.regRaw_enc (by decide))
    (fun _ => Demo.flagSet_enc Demo.regRaw_enc (by decide)) (by intro l hl; cases hl)
    Demo.expected_ok (originAllowed_of Demo.expected_ok (by simp [originList, Demo.regArgs])) .none
    rfl

/-- The demo registration with another raw id. -/
def swappedArgs : AttestationArgs :=
  { Demo.regArgs with credential := { Demo.regCredential with rawId := [9] } }

/-- It is accepted, and the key is stored under the other id. -/
theorem swapped_ok (s : Demo.Store) (hs : Demo.lookup s [9] = none) :
    handleAttestation Demo.env Demo.registrar swappedArgs s = (.ok (), ([9], Demo.stored 1) :: s) :=
  C52_honest_registration Demo.codec Demo.json (a := swappedArgs) rfl
    (clientData_client rfl) Demo.challengeText_ok
    Demo.attObj_enc Demo.regRaw_enc rfl (Demo.rpHash_enc Demo.regRaw_enc rfl)
    (Demo.flagSet_enc Demo.regRaw_enc (by decide))
    (fun _ => Demo.flagSet_enc Demo.regRaw_enc (by decide)) (by intro l hl; cases hl)
    Demo.expected_ok (originAllowed_of Demo.expected_ok
      (by simp [originList, swappedArgs, Demo.regArgs])) .none
    (by
      show (match Demo.lookup s [9] with | some _ => _ | none => _) = _
      rw [hs]
      rfl)

def swappedRecord : AttestationRecord := { Demo.regRecord with credential := swappedArgs.credential }

theorem swapped_log : handleAttestation Demo.env (recording Demo.registrar) swappedArgs ([], []) =
    (.ok (), [([9], Demo.stored 1)], [.attestation swappedRecord]) :=
  C52_honest_registration Demo.codec Demo.json (a := swappedArgs) rfl
    (clientData_client rfl) Demo.challengeText_ok
    Demo.attObj_enc Demo.regRaw_enc rfl (Demo.rpHash_enc Demo.regRaw_enc rfl)
    (Demo.flagSet_enc Demo.regRaw_enc (by decide))
    (fun _ => Demo.flagSet_enc Demo.regRaw_enc (by decide)) (by intro l hl; cases hl)
    Demo.expected_ok (originAllowed_of Demo.expected_ok
      (by simp [originList, swappedArgs, Demo.regArgs])) .none rfl

/-- C20 is false: the demo registration is accepted with a raw id that is not the
attested one. -/
theorem C20_raw_id_attested_refuted :
    CodecLaws Demo.env ∧ JsonLaw Demo.env ∧ ¬ RawIdAttested Demo.env := by
  refine ⟨Demo.codec, Demo.json, fun h => ?_⟩
  obtain ⟨acd, h1, h2⟩ := h _ _ _ _ _ _ swapped_log _ (List.mem_singleton.mpr rfl)
  cases h1
  exact absurd h2 (by decide)

end WebAuthn.Props
