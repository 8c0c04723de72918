import Verif.Props.AndroidStrict
import Verif.Props.WholeDemo

/-!
# A registration with an Android key statement

The registration of the concrete world, with a statement that carries a chain of two certificates.
-/

namespace WebAuthn.Props

open WebAuthn WebAuthn.Spec

namespace AndroidKey

open Android (low integer)

def hash : Bytes := Demo.env.sha256 Demo.regCdj

theorem hash_length : hash.length = 32 := Demo.sha_length _

def challenge : Bytes := 0x04 :: UInt8.ofNat hash.length :: hash

def tee : Bytes := [0x30, 0x0e, 0xa1, 5, 0x31, 3, 0x02, 1, 2, 0xbf, 0x85, 0x3e, 3, 0x02, 1, 0]

def content : Bytes :=
  [0x02, 1, 3] ++ [0x0a, 1, 1] ++ [0x02, 1, 4] ++ [0x0a, 1, 1] ++ challenge ++ [0x04, 0] ++ [0x30, 0] ++ tee

theorem content_length : content.length = 66 := by
  simp [content, challenge, tee, hash_length]

/-- The key description. -/
def ext : Bytes := 0x30 :: UInt8.ofNat content.length :: content

theorem ext_length : ext.length = 68 := by simp [ext, content_length]

def desc : KeyDesc := { Android.desc with challenge := hash }

theorem desc_ext : KeyDescriptionOf desc ext := by
  refine ⟨[0x02, 1, 3], [0x0a, 1, 1], [0x02, 1, 4], [0x0a, 1, 1], challenge, [0x04, 0], [0x30, 0], tee,
    ?_, ?_, ?_, ?_, ?_, ?_, ?_, ?_, ?_⟩
  · unfold Der; exact ⟨_, [3], rfl, integer (x := 3) (by decide), low (by decide) (by decide)⟩
  · unfold Der; exact ⟨_, [1], rfl, integer (x := 1) (by decide), low (by decide) (by decide)⟩
  · unfold Der; exact ⟨_, [4], rfl, integer (x := 4) (by decide), low (by decide) (by decide)⟩
  · unfold Der; exact ⟨_, [1], rfl, integer (x := 1) (by decide), low (by decide) (by decide)⟩
  · unfold Der; exact ⟨_, rfl, low (by decide) (by show hash.length < 128; rw [hash_length]; decide)⟩
  · unfold Der; exact ⟨_, rfl, low (by decide) (by decide)⟩
  · exact ⟨.nil, [], .nil, low (by decide) (by decide)⟩
  · refine ⟨by simp [desc, Android.desc], [[0xa1, 5, 0x31, 3, 0x02, 1, 2], [0xbf, 0x85, 0x3e, 3, 0x02, 1, 0]],
      .cons ⟨[0x31, 3, 0x02, 1, 2], .set _ _ _ (by decide) ?_, low (by decide) (by decide)⟩
        (.cons ⟨[0x02, 1, 0], .integer _ _ _ (by decide) ?_, ?_⟩ .nil), low (by decide) (by decide)⟩
    · unfold Der
      refine ⟨[.integer 2], [[0x02, 1, 2]], rfl, .cons ?_ .nil, low (by decide) (by decide)⟩
      unfold Der
      exact ⟨_, [2], rfl, integer (x := 2) (by decide), low (by decide) (by decide)⟩
    · unfold Der; exact ⟨_, [0], rfl, integer (x := 0) (by decide), low (by decide) (by decide)⟩
    · exact ⟨[0xbf, 0x85, 0x3e], [3], .high 702 [5] 62 (by decide)
        (.snoc [5] 5 62 (.snoc [] 0 5 .nil (by decide)) (by decide)) (by decide), .short _ (by decide), rfl⟩
  · exact low (by decide) (by show content.length < 128; rw [content_length]; decide)

def cert : Cert := ⟨beNat ext, .ok Demo.pubKey, .ok (some ext)⟩

def x5c : List Bytes := [0x32 :: ext, [0x30, 8]]

def sig : Bytes := Demo.sign Demo.pubKey (Demo.regRaw ++ hash)

theorem sig_length : sig.length = 40 := by
  have h : ∀ b, (Demo.sha b).length = 32 := Demo.sha_length
  simp [sig, Demo.sign, Demo.pubKey, h, Cbor.toBE_length]

/-- The parsed attestation object. -/
def att : AttestationObject := ⟨Demo.regAd, .ANDROID_KEY, .androidKey (.value .ES256) sig x5c⟩

theorem load_cert : Demo.env.loadCert (0x32 :: ext) = .ok cert := rfl

theorem attested : Repaired.attestStrict Demo.env (.androidKey (.value .ES256) sig x5c) (.attObj att) Demo.regRaw
    hash = .ok (.BASIC, some [cert, Android.issuer]) := by
  have hd := desc_ext
  refine (C91_repaired_bytes Demo.der (d := desc) (b := ext) (rest := []) (cert := cert) load_cert
    (by rw [List.append_nil]; rfl) hd _).mpr
    ⟨⟨Demo.pubKey, Demo.attested, Demo.key, Demo.pubKey, rfl,
      .ecdsa _ .SHA256 _ _ _ _ _ .es256 (Demo.check_sign _ _), rfl, rfl, Demo.key_of, rfl⟩, ?_, ?_,
      [Android.issuer], .cons rfl .nil, rfl⟩
  · exact ⟨rfl, by simp [desc, Android.desc], by simp [desc, Android.desc], by simp [desc, Android.desc], _,
      .head _, .head _⟩
  · exact ⟨_, .head _, by simp, by simp⟩

theorem strict : AndroidStrict Demo.env .ES256 sig x5c att.authData Demo.regRaw hash [cert, Android.issuer] := by
  obtain ⟨certs, h1, h2⟩ := C91_repaired_exact.mp attested
  cases h2
  exact h1

/-! ## The attestation object -/

def stmtMap : Dict :=
  [(.str "alg", .int (-7)), (.str "sig", .bytes sig), (.str "x5c", .list (x5c.map .bytes))]

def objMap : Dict :=
  [(.str "fmt", .str "android-key"), (.str "attStmt", .dict stmtMap),
   (.str "authData", .bytes Demo.regRaw)]

theorem plain : Plain (.dict objMap) := by
  refine .dict _ ?_ (by simp [objMap]) ?_
  · intro kv hkv
    simp only [objMap, List.mem_cons, List.not_mem_nil, or_false] at hkv
    rcases hkv with rfl | rfl | rfl <;> exact Or.inr ⟨_, rfl⟩
  · intro kv hkv
    simp only [objMap, List.mem_cons, List.not_mem_nil, or_false] at hkv
    rcases hkv with rfl | rfl | rfl
    · exact .str _
    · refine .dict _ ?_ (by simp [stmtMap]) ?_
      · intro kv hkv
        simp only [stmtMap, List.mem_cons, List.not_mem_nil, or_false] at hkv
        rcases hkv with rfl | rfl | rfl <;> exact Or.inr ⟨_, rfl⟩
      · intro kv hkv
        simp only [stmtMap, List.mem_cons, List.not_mem_nil, or_false] at hkv
        rcases hkv with rfl | rfl | rfl
        · exact .int _
        · exact .bytes _
        · refine .list _ fun v hv => ?_
          obtain ⟨b, -, rfl⟩ := List.mem_map.mp hv
          exact .bytes _
    · exact .bytes _

theorem encodes : ∃ b, Cbor.enc (.dict objMap) = .ok b := by
  refine Cbor.enc_dict (by simp [objMap]) fun kv hkv => ?_
  simp only [objMap, List.mem_cons, List.not_mem_nil, or_false] at hkv
  rcases hkv with rfl | rfl | rfl
  · exact ⟨Cbor.enc_str (by decide), Cbor.enc_str (by decide)⟩
  · refine ⟨Cbor.enc_str (by decide), Cbor.enc_dict (by simp [stmtMap]) fun kv hkv => ?_⟩
    simp only [stmtMap, List.mem_cons, List.not_mem_nil, or_false] at hkv
    rcases hkv with rfl | rfl | rfl
    · exact ⟨Cbor.enc_str (by decide), ⟨_, rfl⟩⟩
    · exact ⟨Cbor.enc_str (by decide), Cbor.enc_bytes (by rw [sig_length]; decide)⟩
    · refine ⟨Cbor.enc_str (by decide), Cbor.enc_list (by simp [x5c]) fun v hv => ?_⟩
      simp only [x5c, List.map_cons, List.map_nil, List.mem_cons, List.not_mem_nil, or_false] at hv
      rcases hv with rfl | rfl
      · exact Cbor.enc_bytes (by rw [List.length_cons, ext_length]; decide)
      · exact Cbor.enc_bytes (by decide)
  · exact ⟨Cbor.enc_str (by decide), Cbor.enc_bytes Demo.regRaw_length⟩

def obj : Bytes := (Cbor.enc (.dict objMap)).toOption.getD []

theorem obj_eq : Cbor.enc (.dict objMap) = .ok obj := by
  obtain ⟨b, hb⟩ := encodes
  rw [obj, hb]
  rfl

theorem obj_load : Demo.env.cborLoad obj = .ok (.dict objMap, []) := by
  have := Demo.codec.roundTrip plain obj_eq []
  rwa [List.append_nil] at this

theorem lookupObj {n : String} {v : PyVal} (h : objMap.get? (.str n) = some v) :
    Lookup objMap (.str n) v := lookup_iff.mpr h

theorem lookupStmt {n : String} {v : PyVal} (h : stmtMap.get? (.str n) = some v) :
    Lookup stmtMap (.str n) v := lookup_iff.mpr h

theorem stmt_of : AttStmtOf .ANDROID_KEY stmtMap (.androidKey (.value .ES256) sig x5c) := by
  refine ⟨rfl, ?_, ⟨.int (-7), lookupStmt rfl, Or.inl ⟨.ES256, rfl, rfl⟩⟩, lookupStmt rfl, ?_⟩
  · intro kv hkv
    simp only [stmtMap, List.mem_cons, List.not_mem_nil, or_false] at hkv
    rcases hkv with rfl | rfl | rfl
    · exact ⟨"alg", by simp, rfl⟩
    · exact ⟨"sig", by simp, rfl⟩
    · exact ⟨"x5c", by simp, rfl⟩
  · exact Or.inl (lookupStmt rfl)

theorem obj_of : AttObjOf Demo.env obj att Demo.regRaw :=
  ⟨objMap, [], stmtMap, obj_load, lookupObj rfl, encodedAuthData_of Demo.codec Demo.regRaw_enc,
    lookupObj rfl, lookupObj rfl, stmt_of⟩

/-! ## The ceremony -/

def args : AttestationArgs :=
  { Demo.regArgs with
    credential := { Demo.regCredential with response := .attestation Demo.regCdj obj } }

theorem good : GoodRegistration Demo.env Whole.policy args att .BASIC (some [cert, Android.issuer]) := by
  obtain ⟨cdj, ob, h1, -, h3, h4, -⟩ := U2F.response_ok
  cases h1
  have hc : ClientOk Demo.env Demo.regCdj "webauthn.create" Demo.challenge (.one Demo.origin) none :=
    clientOk_of Demo.json (clientData_client rfl) Demo.challengeText_ok
      (originAllowed_of Demo.expected_ok (by simp [originList])) .none
  exact ⟨Demo.expected_ok, ⟨Demo.regCdj, obj, Demo.regRaw, rfl, clientAccepted_of Demo.refuses_mark hc, obj_of, ⟨_, obj_load⟩,
    h4, .androidKey _ _ _ _ strict⟩, Whole.no_outputs rfl, Whole.own_id rfl rfl, Whole.asked rfl, nofun⟩

/-- The repaired package registers the credential and gives the registrar the chain. -/
theorem registered : Whole.handleAttestation Demo.env Whole.policy Demo.registrar args [] =
    (.ok (), [(Demo.credId, Demo.stored 1)]) :=
  C89_registration_exact.mpr ⟨_, _, _, good, rfl⟩

/-- The signature of the statement is about nothing else. -/
theorem accepted : AcceptedWhole Demo.env Whole.policy "example.com" (.androidKey Demo.regRaw Demo.regCdj) :=
  ⟨_, _, _, _, _, obj, att, _, sig, x5c, registered, rfl, rfl, obj_of, rfl⟩

end AndroidKey

end WebAuthn.Props
