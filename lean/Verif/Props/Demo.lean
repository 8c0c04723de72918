import Verif.Lemmas.JsonText
import Verif.Props.Honest
import Verif.Codec.Der

/-!
# A concrete world

One environment that meets all the laws (with toy cryptography), one registrar,
one registration and one authentication.  They show that the hypotheses of the
theorems can be met; nothing is proved about real cryptography here.
-/

namespace WebAuthn.Demo

open WebAuthn WebAuthn.Spec WebAuthn.Props

/-- A 32-byte digest. -/
@[irreducible] def sha (b : Bytes) : Bytes := toBE 32 (b.length * 2 ^ 240 + beNat b)

/-- The only signature that verifies under a key. -/
def sign (k : CryptoKey) (data : Bytes) : Bytes :=
  match k with
  | .ec _ x y => toBE 4 x ++ toBE 4 y ++ sha data
  | .ed25519 raw => raw ++ sha data
  | .ed448 raw => raw ++ sha data
  | .other n => toBE 4 n ++ sha data

def check (k : CryptoKey) (sig data : Bytes) : Py Unit :=
  if sig = sign k data then .ok () else .error .invalidSignature

def env : Env where
  jsonLoads := Json.loads
  cborLoad := Cbor.load
  cborDumps := Cbor.enc
  sha256 := sha
  nfkcBad := fun _ => false
  bracketOk := fun _ => false
  ecPoint := fun _ x y => if x = 0 ∧ y = 0 then .error .valueError else .ok ()
  ed25519Load := fun _ => .ok ()
  ed448Load := fun _ => .ok ()
  ecdsaVerify := fun k _ sig data => check k sig data
  eddsaVerify := check
  spki := fun
    | .ec _ x y => toBE 66 x ++ toBE 66 y
    | .ed25519 raw => 1 :: raw
    | .ed448 raw => 2 :: raw
    | .other n => 3 :: toBE 8 n
  loadCert := fun b => match b with
    | 0x30 :: c :: rest => .ok {
        id := beNat rest
        publicKey := .ok (.ec .SECP256R1 c.toNat 1)
        keyAttestationExt := if rest = [] then .error .extensionNotFound else .ok (some rest) }
    | 0x31 :: c :: rest => .ok {
        id := beNat rest
        publicKey := .ok (.ed25519 [c])
        keyAttestationExt := .ok (some rest) }
    | 0x32 :: rest => .ok {
        id := beNat rest
        publicKey := .ok (.ec .SECP256R1 (beNat (List.replicate 31 7 ++ [11]))
          (beNat (List.replicate 31 9 ++ [13])))
        keyAttestationExt := .ok (some rest) }
    | _ => .error .valueError
  decodeDer := Der.decode

theorem sha_length (b : Bytes) : (env.sha256 b).length = 32 := by
  show (sha b).length = 32
  unfold sha
  exact Cbor.toBE_length _ _

theorem stream : StreamLaws env := Cbor.streamLaws rfl
theorem codec : CodecLaws env := Cbor.codecLaws rfl rfl
theorem json : JsonLaw env := Json.jsonLaw rfl
theorem der : DerLaw env := Der.derLaw rfl

/-! ## A registrar in memory -/

/-- Credentials by raw id, the newest first. -/
abbrev Store := List (Bytes × CredentialData)

def lookup (s : Store) (id : Bytes) : Option CredentialData :=
  match s with
  | [] => none
  | (i, cd) :: s => if i = id then some cd else lookup s id

/-- Keeps the attested key, the user and the last counter.  Refuses a credential
id that it has. -/
def registrar : Registrar Store where
  registerAttestation := fun r s =>
    match r.att.authData.attested.bind (·.credentialPublicKey) with
    | none => (.ok (some "no key"), s)
    | some k =>
      match lookup s r.credential.rawId with
      | some _ => (.ok (some "known"), s)
      | none => (.ok none,
          (r.credential.rawId, ⟨k, some r.att.authData.signCount, r.user, none⟩) :: s)
  registerAssertion := fun r s =>
    match lookup s r.credential.rawId with
    | none => (.ok (some "unknown"), s)
    | some cd => (.ok none,
        (r.credential.rawId, { cd with signatureCount := some r.authData.signCount }) :: s)
  getCredentialData := fun id s => (.ok (lookup s id), s)

/-! ## The parties -/

def rp : RpEntity := { name := "Example", id := "example.com" }
def user : UserEntity := { name := "ada", id := [0x75, 0x01], displayName := "Ada" }

def x : Bytes := List.replicate 31 7 ++ [11]
def y : Bytes := List.replicate 31 9 ++ [13]

def keyMap : Dict :=
  [(.int 1, .int 2), (.int 3, .int (-7)), (.int (-1), .int 1), (.int (-2), .bytes x),
   (.int (-3), .bytes y)]

def key : CPK := .ec2 { kty := .value .EC2, alg := some (.value .ES256) } x y (.value .P_256)

theorem lookup_keyMap {n : Int} {v : PyVal} (h : keyMap.get? (.int n) = some v) :
    Lookup keyMap (.int n) v := lookup_iff.mpr h

theorem keyMap_key : CoseKeyOf keyMap key := by
  refine ⟨⟨⟨.int 2, lookup_keyMap rfl, Or.inl ⟨.EC2, rfl, rfl⟩⟩, ?_,
    ⟨_, .int (-7), rfl, lookup_keyMap rfl, Or.inl ⟨.ES256, rfl, rfl⟩⟩, ?_, ?_⟩, rfl,
    ⟨.int 1, lookup_keyMap rfl, Or.inl ⟨.P_256, rfl, rfl⟩⟩, Or.inl rfl, lookup_keyMap rfl,
    lookup_keyMap rfl, by decide, by decide⟩
  · exact Or.inl (absent_iff.mpr rfl)
  · exact Or.inl (absent_iff.mpr rfl)
  · exact Or.inl (absent_iff.mpr rfl)

theorem key_consistent : KeyConsistent key := ⟨rfl, Or.inl rfl, _, rfl, Or.inl rfl⟩

theorem keyMap_plain : Plain (.dict keyMap) := by
  refine .dict _ ?_ (by simp [keyMap]) ?_
  · intro kv hkv
    simp only [keyMap, List.mem_cons, List.not_mem_nil, or_false] at hkv
    rcases hkv with rfl | rfl | rfl | rfl | rfl <;> exact Or.inl ⟨_, rfl⟩
  · intro kv hkv
    simp only [keyMap, List.mem_cons, List.not_mem_nil, or_false] at hkv
    rcases hkv with rfl | rfl | rfl | rfl | rfl
    · exact .int _
    · exact .int _
    · exact .int _
    · exact .bytes _
    · exact .bytes _

/-- The encoded key. -/
def keyBytes : Bytes := (Cbor.enc (.dict keyMap)).toOption.getD []

theorem keyBytes_enc : EncodedKey env key keyBytes :=
  ⟨keyMap, keyMap_key, key_consistent, keyMap_plain, rfl⟩

def credId : Bytes := [0xc1, 0xd2, 0xe3, 0xf4]

def attested : AttestedCredentialData :=
  ⟨List.replicate 16 0xaa, 4, credId, some key⟩

/-! ## Registration -/

def rpHash : Bytes := sha (utf8Encode rp.id)

/-- UP, UV, AT set; counter 1. -/
def regAd : AuthData := ⟨rpHash, 0x45, 1, some attested, none⟩

def regRaw : Bytes :=
  rpHash ++ [0x45] ++ [0, 0, 0, 1] ++ (List.replicate 16 0xaa ++ [0, 4] ++ credId ++ keyBytes) ++ []

theorem bigEndian_of {b : Bytes} {n : Nat} (h : beNat b = n) : BigEndian b n := by
  rw [← h]; exact bigEndian_beNat b

theorem regRaw_enc : EncodedAuthData env regAd regRaw :=
  ⟨0x45, [0, 0, 0, 1], _, [], rfl, sha_length _, rfl, rfl, bigEndian_of rfl,
    ⟨by decide, [0, 4], key, keyBytes, rfl, rfl, rfl, bigEndian_of rfl, rfl, rfl, keyBytes_enc⟩,
    ⟨by decide, rfl⟩⟩

def objMap (raw : Bytes) : Dict :=
  [(.str "fmt", .str "none"), (.str "attStmt", .dict []), (.str "authData", .bytes raw)]

theorem lookup_objMap {raw : Bytes} {n : String} {v : PyVal}
    (h : (objMap raw).get? (.str n) = some v) : Lookup (objMap raw) (.str n) v :=
  lookup_iff.mpr h

theorem objMap_plain (raw : Bytes) : Plain (.dict (objMap raw)) := by
  refine .dict _ ?_ (by simp [objMap]) ?_
  · intro kv hkv
    simp only [objMap, List.mem_cons, List.not_mem_nil, or_false] at hkv
    rcases hkv with rfl | rfl | rfl <;> exact Or.inr ⟨_, rfl⟩
  · intro kv hkv
    simp only [objMap, List.mem_cons, List.not_mem_nil, or_false] at hkv
    rcases hkv with rfl | rfl | rfl
    · exact .str _
    · exact .dict _ (by simp) (by simp) (by simp)
    · exact .bytes _

def attObj : Bytes := (Cbor.enc (.dict (objMap regRaw))).toOption.getD []

theorem objMap_enc {raw : Bytes} (h : raw.length < 2 ^ 64) :
    ∃ b, Cbor.enc (.dict (objMap raw)) = .ok b := by
  refine Cbor.enc_dict (by simp [objMap]) fun kv hkv => ?_
  simp only [objMap, List.mem_cons, List.not_mem_nil, or_false] at hkv
  rcases hkv with rfl | rfl | rfl
  · exact ⟨Cbor.enc_str (by decide), Cbor.enc_str (by decide)⟩
  · exact ⟨Cbor.enc_str (by decide), Cbor.enc_dict (by simp) (by simp)⟩
  · exact ⟨Cbor.enc_str (by decide), Cbor.enc_bytes h⟩

theorem regRaw_length : regRaw.length < 2 ^ 64 := by
  have : keyBytes.length = 77 := by decide
  simp [regRaw, rpHash, show ∀ b, (sha b).length = 32 from sha_length, this, credId]

theorem attObj_enc : EncodedNoneAttestation env regRaw attObj := by
  refine ⟨objMap regRaw, lookup_objMap rfl, lookup_objMap rfl, lookup_objMap rfl, objMap_plain _, ?_⟩
  obtain ⟨b, hb⟩ := objMap_enc regRaw_length
  show Cbor.enc _ = _
  rw [attObj, hb]
  rfl

def challenge : Bytes := [0xff, 0xfe, 0xfd, 0xfc, 0xfb, 0xfa, 0xf9, 0xf8, 0xf7, 0xf6, 0xf5, 0xf4,
  0xf3, 0xf2, 0xf1, 0xf0]
def challengeText : String := "__79_Pv6-fj39vX08_Lx8A"

theorem challengeText_ok : Base64UrlText challengeText challenge := by
  rw [← urlBase64Decode_ok_iff]
  decide

def origin : String := "https://example.com"

theorem origin_ok : OriginOf env origin ⟨"https", "example.com", 443⟩ :=
  originOf_serialises serialises_example'

theorem expected_ok : ExpectedOk env (.one origin) := by
  refine ⟨by simp [originList], fun s hs => ?_⟩
  simp only [originList, List.mem_singleton] at hs
  subst hs
  exact ⟨_, origin_ok⟩

def regCdj : Bytes := utf8Encode (clientText "webauthn.create" challengeText origin)

def regCredential : Credential :=
  { id := "wdLj9A", type := "public-key", rawId := credId, response := .attestation regCdj attObj }

def regArgs : AttestationArgs :=
  { credential := regCredential, user, rp, expectedChallenge := challenge,
    expectedOrigin := .one origin, requireUserVerification := true }

theorem flagSet_enc {ad : AuthData} {raw : Bytes} (h : EncodedAuthData env ad raw) {i : Nat}
    (hi : ad.flags.testBit i = true) : FlagSet raw i := by
  obtain ⟨-, -, ⟨f, hf, he⟩, -⟩ := authDataOf_head (encodedAuthData_of codec h)
  exact ⟨f, hf, by rw [he]; exact hi⟩

theorem rpHash_enc {ad : AuthData} {raw : Bytes} (h : EncodedAuthData env ad raw)
    (hr : ad.rpIdHash = rpHash) : RpHashOk env raw rp.id :=
  ⟨_, rfl, by rw [← (authDataOf_head (encodedAuthData_of codec h)).1, hr]; rfl⟩

def regRecord : AttestationRecord :=
  ⟨regCredential, ⟨regAd, .NONE, .none⟩, .NONE, user, rp, none⟩

def stored (n : Nat) : CredentialData := ⟨key, some n, user, none⟩

/-- The registration succeeds. -/
theorem registration_ok (s : Store) (hs : lookup s credId = none) :
    handleAttestation env registrar regArgs s = (.ok (), (credId, stored 1) :: s) :=
  C52_honest_registration codec json (a := regArgs) rfl (clientData_client rfl) challengeText_ok
    attObj_enc regRaw_enc
    rfl (rpHash_enc regRaw_enc rfl) (flagSet_enc regRaw_enc (by decide))
    (fun _ => flagSet_enc regRaw_enc (by decide)) (by intro l hl; cases hl) expected_ok
    (originAllowed_of expected_ok (by simp [originList, regArgs])) .none
    (by
      show (match lookup s credId with | some _ => _ | none => _) = _
      rw [hs]
      rfl)

/-! ## Authentication -/

/-- UP, UV set; counter 2. -/
def authAd : AuthData := ⟨rpHash, 0x05, 2, none, none⟩

def authRaw : Bytes := rpHash ++ [0x05] ++ [0, 0, 0, 2] ++ [] ++ []

theorem authRaw_enc : EncodedAuthData env authAd authRaw :=
  ⟨0x05, [0, 0, 0, 2], [], [], rfl, sha_length _, rfl, rfl, bigEndian_of rfl, ⟨by decide, rfl⟩,
    ⟨by decide, rfl⟩⟩

def authCdj : Bytes := utf8Encode (clientText "webauthn.get" challengeText origin)

def pubKey : CryptoKey := .ec .SECP256R1 (beNat x) (beNat y)

def signature : Bytes := sign pubKey (authRaw ++ sha authCdj)

def authCredential : Credential :=
  { id := "wdLj9A", type := "public-key", rawId := credId,
    response := .assertion authCdj authRaw signature (some user.id) }

def authArgs : AssertionArgs :=
  { credential := authCredential, expectedChallenge := challenge, expectedOrigin := .one origin,
    rp := some rp, allowCredentials := some [⟨[1]⟩, ⟨credId⟩], requireUserVerification := true }

theorem key_of : KeyOf env key pubKey :=
  .ec2 _ _ _ _ _ _ _ .p256 (bigEndian_beNat _) (bigEndian_beNat _) (by decide)

theorem check_sign (k : CryptoKey) (data : Bytes) : check k (sign k data) data = .ok () := if_pos rfl

theorem ecdsaVerify_eq (k : CryptoKey) (h : HashAlg) (sig data : Bytes) :
    env.ecdsaVerify k h sig data = check k sig data := rfl

theorem signature_ok : SignedBy env key signature (authRaw ++ env.sha256 authCdj) :=
  .ecdsa _ _ _ _ pubKey _ _ _ _ key_of rfl .es256 (check_sign pubKey (authRaw ++ sha authCdj))

theorem lookup_head (id : Bytes) (cd : CredentialData) (s : Store) :
    lookup ((id, cd) :: s) id = some cd := if_pos rfl

/-- The authentication succeeds when the stored counter is 1, and the new one is
stored. -/
theorem authentication_ok (s : Store) :
    handleAssertion env registrar authArgs ((credId, stored 1) :: s) =
      (.ok (), (credId, stored 2) :: (credId, stored 1) :: s) := by
  refine C52_honest_authentication codec json (a := authArgs) (cd := stored 1)
    (s1 := (credId, stored 1) :: s) (user := user) (rp := rp) (ad := authAd) ?_ ?_
    (rfl : authCredential.response = _) (clientData_client rfl) challengeText_ok .fromHandle (.arg _) authRaw_enc
    (rpHash_enc authRaw_enc rfl) (flagSet_enc authRaw_enc (by decide))
    (fun _ => flagSet_enc authRaw_enc (by decide)) (by intro l hl; cases hl) signature_ok ?_
    expected_ok (originAllowed_of expected_ok (by simp [originList, authArgs])) .none ?_
  · show (Except.ok (lookup _ credId), _) = _
    rw [lookup_head]
  · intro l hl
    cases hl
    exact ⟨⟨credId⟩, by simp, rfl⟩
  · intro n hn _
    cases hn
    exact ⟨2, (authDataOf_head (encodedAuthData_of codec authRaw_enc)).2.2.2, by decide⟩
  · simp only [registrar, authArgs, authCredential, lookup_head]
    rfl

/-- The registrar keeps what it is given, as C52 asks. -/
theorem keeps : KeepsRegistrations registrar where
  accepts := by
    intro r s acd k h1 h2 h3
    have h3 : lookup s r.credential.rawId = none := by
      simpa [registrar] using h3
    refine ⟨(r.credential.rawId, ⟨k, some r.att.authData.signCount, r.user, none⟩) :: s, ?_⟩
    simp only [registrar, h1, Option.bind_some, h2, h3]
  finds := by
    intro r s s' acd k h h1 h2
    simp only [registrar, h1, Option.bind_some, h2] at h
    cases h3 : lookup s r.credential.rawId with
    | some cd =>
      rw [h3] at h
      simp at h
    | none =>
      rw [h3] at h
      simp only [Prod.mk.injEq, true_and] at h
      subst h
      refine ⟨⟨k, some r.att.authData.signCount, r.user, none⟩,
        (r.credential.rawId, ⟨k, some r.att.authData.signCount, r.user, none⟩) :: s, ?_, rfl, rfl,
        Or.inl rfl, ?_, ?_⟩
      · simp only [registrar, lookup_head]
      · intro n hn
        cases hn
        exact Int.le_refl _
      · intro r' h'
        refine ⟨(r.credential.rawId, ⟨k, some r'.authData.signCount, r.user, none⟩) ::
          (r.credential.rawId, ⟨k, some r.att.authData.signCount, r.user, none⟩) :: s, ?_⟩
        simp only [registrar, h', lookup_head]

/-- C52 applies: a registration and an authentication, one after the other. -/
example : ∃ s' s'', handleAttestation env registrar regArgs [] = (.ok (), s') ∧
    handleAssertion env registrar authArgs s' = (.ok (), s'') :=
  C52_honest_ceremonies codec json keeps [] (a := regArgs) (a' := authArgs) (k := key) rfl rfl
    (clientData_client rfl)
    challengeText_ok attObj_enc regRaw_enc rfl rfl (rpHash_enc regRaw_enc rfl)
    (flagSet_enc regRaw_enc (by decide)) (fun _ => flagSet_enc regRaw_enc (by decide))
    (by intro l hl; cases hl) expected_ok
    (originAllowed_of expected_ok (by simp [originList, regArgs])) .none rfl
    (by intro l hl; cases hl; exact ⟨⟨credId⟩, by simp, rfl⟩)
    (rfl : authCredential.response = _) (clientData_client rfl) challengeText_ok (Or.inr ⟨rfl, by simp⟩)
    (by intro h hh; cases hh; rfl) rfl authRaw_enc (rpHash_enc authRaw_enc rfl)
    (flagSet_enc authRaw_enc (by decide)) (fun _ => flagSet_enc authRaw_enc (by decide))
    (by intro l hl; cases hl) signature_ok (by decide) expected_ok
    (originAllowed_of expected_ok (by simp [originList, authArgs])) .none

end WebAuthn.Demo
