import Verif.Props.Separation
import Verif.Props.Instances

/-!
# Signatures that are accepted for two things, concretely (C86)

A FIDO U2F statement for a key on P-256 whose id has the byte 4 at the right place is also one for
a key on P-384 with a shorter id.
-/

namespace WebAuthn.Props

open WebAuthn WebAuthn.Spec

namespace TwoKeys

/-- The shorter id. -/
def shortId : Bytes := [0xc1, 0xd2, 0xe3, 0xf4]

/-- What is a part of the longer id, or of the coordinates. -/
def filling : Bytes := List.replicate 31 0x55

def longId : Bytes := shortId ++ [0x04] ++ filling

def x384 : Bytes := filling ++ [0x04] ++ Demo.x.take 16
def y384 : Bytes := Demo.x.drop 16 ++ Demo.y

def keyMap384 : Dict :=
  [(.int 1, .int 2), (.int 3, .int (-35)), (.int (-1), .int 2), (.int (-2), .bytes x384),
   (.int (-3), .bytes y384)]

def key384 : CPK := .ec2 { kty := .value .EC2, alg := some (.value .ES384) } x384 y384 (.value .P_384)

theorem lookup384 {n : Int} {v : PyVal} (h : keyMap384.get? (.int n) = some v) :
    Lookup keyMap384 (.int n) v := lookup_iff.mpr h

theorem keyMap384_key : CoseKeyOf keyMap384 key384 := by
  refine ⟨⟨⟨.int 2, lookup384 rfl, Or.inl ⟨.EC2, rfl, rfl⟩⟩, ?_,
    ⟨_, .int (-35), rfl, lookup384 rfl, Or.inl ⟨.ES384, rfl, rfl⟩⟩, ?_, ?_⟩, rfl,
    ⟨.int 2, lookup384 rfl, Or.inl ⟨.P_384, rfl, rfl⟩⟩, Or.inr (Or.inl rfl), lookup384 rfl,
    lookup384 rfl, by decide, by decide⟩
  · exact Or.inl (absent_iff.mpr rfl)
  · exact Or.inl (absent_iff.mpr rfl)
  · exact Or.inl (absent_iff.mpr rfl)

theorem keyMap384_plain : Plain (.dict keyMap384) := by
  refine .dict _ ?_ (by simp [keyMap384]) ?_
  · intro kv hkv
    simp only [keyMap384, List.mem_cons, List.not_mem_nil, or_false] at hkv
    rcases hkv with rfl | rfl | rfl | rfl | rfl <;> exact Or.inl ⟨_, rfl⟩
  · intro kv hkv
    simp only [keyMap384, List.mem_cons, List.not_mem_nil, or_false] at hkv
    rcases hkv with rfl | rfl | rfl | rfl | rfl
    · exact .int _
    · exact .int _
    · exact .int _
    · exact .bytes _
    · exact .bytes _

def keyBytes384 : Bytes := (Cbor.enc (.dict keyMap384)).toOption.getD []

theorem keyBytes384_enc : EncodedKey Demo.env key384 keyBytes384 :=
  ⟨keyMap384, keyMap384_key, ⟨rfl, Or.inr (Or.inl rfl), _, rfl, Or.inr (Or.inl rfl)⟩, keyMap384_plain, rfl⟩

/-! ## Registrations with FIDO U2F statements -/

/-- The signed bytes. -/
def message : Bytes :=
  [0x00] ++ Demo.rpHash ++ Demo.sha Demo.regCdj ++ longId ++ [0x04] ++ Demo.x ++ Demo.y

def sig : Bytes := Demo.sign (.ec .SECP256R1 7 1) message

theorem sig_length : sig.length = 40 := by
  have h : ∀ b, (Demo.sha b).length = 32 := Demo.sha_length
  simp [sig, Demo.sign, h, Cbor.toBE_length]

def stmtMap : Dict := [(.str "sig", .bytes sig), (.str "x5c", .list [.bytes U2F.certBytes])]

section

variable (acd : AttestedCredentialData) (body : Bytes)

def ad : AuthData := ⟨Demo.rpHash, 0x45, 1, some acd, none⟩

def raw : Bytes := Demo.rpHash ++ [0x45] ++ [0, 0, 0, 1] ++ body ++ []

def objMap : Dict :=
  [(.str "fmt", .str "fido-u2f"), (.str "attStmt", .dict stmtMap), (.str "authData", .bytes (raw body))]

def att : AttestationObject := ⟨ad acd, .FIDO_U2F, .fidoU2F sig [U2F.certBytes]⟩

def obj : Bytes := (Cbor.enc (.dict (objMap body))).toOption.getD []

def args : AttestationArgs :=
  { Demo.regArgs with
    credential := { Demo.regCredential with
      rawId := acd.credentialId, response := .attestation Demo.regCdj (obj body) } }

variable {acd body}

theorem raw_enc (h : EncodedAttested Demo.env acd body) : EncodedAuthData Demo.env (ad acd) (raw body) :=
  ⟨0x45, [0, 0, 0, 1], body, [], rfl, Demo.sha_length _, rfl, rfl, Demo.bigEndian_of rfl,
    ⟨by decide, h⟩, ⟨by decide, rfl⟩⟩

theorem plain : Plain (.dict (objMap body)) := by
  refine .dict _ ?_ (by simp [objMap]) ?_
  · intro kv hkv
    simp only [objMap, List.mem_cons, List.not_mem_nil, or_false] at hkv
    rcases hkv with rfl | rfl | rfl <;> exact Or.inr ⟨_, rfl⟩
  · intro kv hkv
    simp only [objMap, List.mem_cons, List.not_mem_nil, or_false] at hkv
    rcases hkv with rfl | rfl | rfl
    · exact .str _
    · refine .dict _ ?_ (by simp [stmtMap]) ?_
      · intro kv hkv
        simp only [stmtMap, List.mem_cons, List.not_mem_nil, or_false] at hkv
        rcases hkv with rfl | rfl <;> exact Or.inr ⟨_, rfl⟩
      · intro kv hkv
        simp only [stmtMap, List.mem_cons, List.not_mem_nil, or_false] at hkv
        rcases hkv with rfl | rfl
        · exact .bytes _
        · refine .list _ fun v hv => ?_
          simp only [List.mem_cons, List.not_mem_nil, or_false] at hv
          subst hv
          exact .bytes _
    · exact .bytes _

theorem obj_eq (hl : body.length < 1000) : Cbor.enc (.dict (objMap body)) = .ok (obj body) := by
  have : ∃ b, Cbor.enc (.dict (objMap body)) = .ok b := by
    refine Cbor.enc_dict (by simp [objMap]) fun kv hkv => ?_
    simp only [objMap, List.mem_cons, List.not_mem_nil, or_false] at hkv
    rcases hkv with rfl | rfl | rfl
    · exact ⟨Cbor.enc_str (by decide), Cbor.enc_str (by decide)⟩
    · refine ⟨Cbor.enc_str (by decide), Cbor.enc_dict (by simp [stmtMap]) fun kv hkv => ?_⟩
      simp only [stmtMap, List.mem_cons, List.not_mem_nil, or_false] at hkv
      rcases hkv with rfl | rfl
      · exact ⟨Cbor.enc_str (by decide), Cbor.enc_bytes (by rw [sig_length]; decide)⟩
      · refine ⟨Cbor.enc_str (by decide), Cbor.enc_list (by simp) fun v hv => ?_⟩
        simp only [List.mem_cons, List.not_mem_nil, or_false] at hv
        subst hv
        exact Cbor.enc_bytes (by decide)
    · refine ⟨Cbor.enc_str (by decide), Cbor.enc_bytes ?_⟩
      have h : ∀ b, (Demo.sha b).length = 32 := Demo.sha_length
      simp only [raw, Demo.rpHash, List.length_append, h, List.length_cons, List.length_nil]
      omega
  obtain ⟨b, hb⟩ := this
  rw [obj, hb]
  rfl

theorem obj_of (h : EncodedAttested Demo.env acd body) (hl : body.length < 1000) :
    AttObjOf Demo.env (obj body) (att acd) (raw body) := by
  have := Demo.codec.roundTrip plain (obj_eq hl) []
  rw [List.append_nil] at this
  refine ⟨objMap body, [], stmtMap, this, lookup_iff.mpr rfl, encodedAuthData_of Demo.codec (raw_enc h),
    lookup_iff.mpr rfl, lookup_iff.mpr rfl, rfl, ?_, lookup_iff.mpr rfl, Or.inl (lookup_iff.mpr rfl)⟩
  intro kv hkv
  simp only [stmtMap, List.mem_cons, List.not_mem_nil, or_false] at hkv
  rcases hkv with rfl | rfl
  · exact ⟨"sig", by simp, rfl⟩
  · exact ⟨"x5c", by simp, rfl⟩

theorem response_ok (h : EncodedAttested Demo.env acd body) (hl : body.length < 1000) :
    AttestationOk Demo.env (args acd body) (att acd) (raw body) := by
  refine ⟨Demo.regCdj, obj body, rfl, ?_, obj_of h hl, ⟨encodedAuthData_of Demo.codec (raw_enc h),
    Demo.rpHash_enc (raw_enc h) rfl, Demo.flagSet_enc (raw_enc h) (show (0x45 : Nat).testBit 0 = true by decide),
    fun _ => Demo.flagSet_enc (raw_enc h) (show (0x45 : Nat).testBit 2 = true by decide),
    by intro l hl; cases hl⟩, by intro h; cases h⟩
  exact clientOk_of Demo.json (clientData_client rfl) Demo.challengeText_ok
    (originAllowed_of Demo.expected_ok (by simp [originList, args, Demo.regArgs])) .none

theorem accepted (h : EncodedAttested Demo.env acd body) (hl : body.length < 1000) {b : KeyBase}
    {x y : Bytes} {crv : NV Curve} (hk : acd.credentialPublicKey = some (.ec2 b x y crv))
    (hm : [0x00] ++ Demo.rpHash ++ Demo.sha Demo.regCdj ++ acd.credentialId ++ [0x04] ++ x ++ y = message) :
    Accepted attest Demo.env "example.com" (.u2f Demo.rpHash Demo.regCdj acd.credentialId x y) := by
  refine ⟨args acd body, obj body, att acd, raw body, _, sig, _, acd, b, crv, rfl, rfl, response_ok h hl, rfl,
    C21_fido_u2f_exact.mpr ⟨U2F.cert, ?_, rfl⟩, rfl, rfl, rfl, hk⟩
  refine ⟨U2F.certBytes, 7, 1, acd, b, x, y, crv, rfl, rfl, rfl, rfl, hk, ?_⟩
  rw [show [0x00] ++ (att acd).authData.rpIdHash ++ Demo.env.sha256 Demo.regCdj ++ acd.credentialId ++ [0x04] ++ x ++ y =
    message from hm]
  exact Demo.check_sign _ message

end

def attestedLong : AttestedCredentialData := ⟨List.replicate 16 0xaa, 36, longId, some Demo.key⟩
def bodyLong : Bytes := List.replicate 16 0xaa ++ [0, 36] ++ longId ++ Demo.keyBytes

theorem long_enc : EncodedAttested Demo.env attestedLong bodyLong :=
  ⟨[0, 36], Demo.key, Demo.keyBytes, rfl, rfl, rfl, Demo.bigEndian_of rfl, rfl, rfl, Demo.keyBytes_enc⟩

def attestedShort : AttestedCredentialData := ⟨List.replicate 16 0xaa, 4, shortId, some key384⟩
def bodyShort : Bytes := List.replicate 16 0xaa ++ [0, 4] ++ shortId ++ keyBytes384

theorem short_enc : EncodedAttested Demo.env attestedShort bodyShort :=
  ⟨[0, 4], key384, keyBytes384, rfl, rfl, rfl, Demo.bigEndian_of rfl, rfl, rfl, keyBytes384_enc⟩

theorem accepted_long : Accepted attest Demo.env "example.com"
    (.u2f Demo.rpHash Demo.regCdj longId Demo.x Demo.y) :=
  accepted long_enc (by decide +kernel) rfl rfl

theorem same : shortId ++ [0x04] ++ x384 ++ y384 = longId ++ [0x04] ++ Demo.x ++ Demo.y := by decide

theorem accepted_short : Accepted attest Demo.env "example.com"
    (.u2f Demo.rpHash Demo.regCdj shortId x384 y384) :=
  accepted short_enc (by decide +kernel) rfl (by
    show _ ++ shortId ++ [0x04] ++ x384 ++ y384 = _
    have := congrArg (fun t => [0x00] ++ Demo.rpHash ++ Demo.sha Demo.regCdj ++ t) same
    simpa only [message, List.append_assoc] using this)

theorem same_message : Signed.message Demo.env (.u2f Demo.rpHash Demo.regCdj longId Demo.x Demo.y) =
    Signed.message Demo.env (.u2f Demo.rpHash Demo.regCdj shortId x384 y384) := by
  show [0x00] ++ Demo.rpHash ++ Demo.sha Demo.regCdj ++ longId ++ [0x04] ++ Demo.x ++ Demo.y =
    [0x00] ++ Demo.rpHash ++ Demo.sha Demo.regCdj ++ shortId ++ [0x04] ++ x384 ++ y384
  have := congrArg (fun t => [0x00] ++ Demo.rpHash ++ Demo.sha Demo.regCdj ++ t) same
  simpa only [List.append_assoc] using this.symm

theorem rp_nonzero : ¬ ∃ b, Utf8 b "example.com" ∧ Demo.env.sha256 b = List.replicate 32 0 := by
  rintro ⟨b, rfl, h⟩
  revert h
  show Demo.sha _ ≠ _
  unfold Demo.sha
  decide +kernel

theorem accepted_repaired : Accepted Repaired.attest Demo.env "example.com"
    (.u2f Demo.rpHash Demo.regCdj longId Demo.x Demo.y) := by
  obtain ⟨a, ob, o, raw, r, sig, x5c, acd, b, crv, h1, h2, h3, h4, h5, h6, h7, h8, h9⟩ := accepted_long
  refine ⟨a, ob, o, raw, r, sig, x5c, acd, b, crv, h1, h2, h3, h4, ?_, h6, h7, h8, h9⟩
  rw [h4] at h5 ⊢
  refine C86_repaired_u2f.mpr ⟨h5, fun acd' b' x' y' crv' g1 g2 => ?_⟩
  rw [h7] at g1
  cases g1
  rw [h9] at g2
  cases g2
  decide

theorem refused_repaired : ¬ Accepted Repaired.attest Demo.env "example.com"
    (.u2f Demo.rpHash Demo.regCdj shortId x384 y384) := by
  rintro ⟨a, ob, o, raw, r, sig, x5c, acd, b, crv, -, -, -, h4, h5, -, h7, -, h9⟩
  rw [h4] at h5
  exact absurd ((C86_repaired_u2f.mp h5).2 _ _ _ _ _ h7 h9).1 (by decide)

theorem accepted_login {att : Env → AttStmt → AttObjArg → Bytes → Bytes → Py (AttestationType × TrustedPath)} :
    Accepted att Demo.env "example.com" (.login Demo.authRaw Demo.authCdj) :=
  ⟨_, Demo.registrar, Demo.authArgs, [(Demo.credId, Demo.stored 1)], _, _, _, _, _, _,
    Demo.authentication_ok [], rfl, rfl, .arg _, rfl⟩

theorem cdj_hash : Demo.env.sha256 Demo.authCdj ≠ Demo.env.sha256 Demo.regCdj := by
  show Demo.sha _ ≠ Demo.sha _
  unfold Demo.sha
  decide +kernel

end TwoKeys

/-- C86 is false: a signature of a FIDO U2F statement about a key on P-256 is accepted as one about
a key on P-384 with another id. -/
theorem C86_separate_refuted : CodecLaws Demo.env ∧ JsonLaw Demo.env ∧ (∀ b, (Demo.env.sha256 b).length = 32) ∧
    ¬ Separate attest Demo.env := by
  refine ⟨Demo.codec, Demo.json, Demo.sha_length, fun h => ?_⟩
  rcases h _ _ _ TwoKeys.accepted_long TwoKeys.accepted_short TwoKeys.same_message with h | ⟨h, -⟩ | h
  · simp only [Signed.u2f.injEq] at h
    exact absurd h.2.2.1 (by decide)
  · exact h rfl
  · exact TwoKeys.rp_nonzero h

/-! The hypotheses of the positive theorems are met: a login, and the statement about the key on
P-256, which differ in what was signed. -/

example : ∃ u u', u ≠ u' ∧ Accepted attest Demo.env "example.com" u ∧ Accepted attest Demo.env "example.com" u' ∧
    u.message Demo.env ≠ u'.message Demo.env := by
  refine ⟨_, _, ?_, TwoKeys.accepted_login, TwoKeys.accepted_long, fun h => ?_⟩
  · nofun
  · rcases C86_separate_partial Demo.sha_length TwoKeys.accepted_login TwoKeys.accepted_long nofun h with
      h | ⟨-, h⟩ | h
    · cases h
    · exact TwoKeys.cdj_hash h
    · exact TwoKeys.rp_nonzero h

example : ∃ u u', u ≠ u' ∧ Accepted Repaired.attest Demo.env "example.com" u ∧
    Accepted Repaired.attest Demo.env "example.com" u' ∧ u.message Demo.env ≠ u'.message Demo.env := by
  refine ⟨_, _, ?_, TwoKeys.accepted_login, TwoKeys.accepted_repaired, fun h => ?_⟩
  · nofun
  · rcases C86_repaired_separate Demo.sha_length _ _ _ TwoKeys.accepted_login TwoKeys.accepted_repaired h with
      h | ⟨-, h⟩ | h
    · cases h
    · exact TwoKeys.cdj_hash h
    · exact TwoKeys.rp_nonzero h

end WebAuthn.Props
