import Verif.Props.Ceremony

/-!
# The concrete world again, with everything that is optional

A registration and an authentication with extensions, token binding, several
expected origins, a given user, a stored Relying Party and a counter that went
down, which the Relying Party chose to ignore.
-/

namespace WebAuthn.Demo

open WebAuthn WebAuthn.Spec WebAuthn.Spec.JsonGrammar WebAuthn.Props

/-! ## Client data with a token binding -/

def bindingId : String := "AAECAw"

/-- Other members first. -/
def boundText (type challenge origin : String) : String := String.ofList ('{' ::
  (ccdToString "x" ++ ':' :: ['n', 'u', 'l', 'l'] ++ ',' ::
  (ccdToString "tokenBinding" ++ ':' :: ('{' ::
    (ccdToString "status" ++ ':' :: ccdToString "present" ++ ',' ::
    (ccdToString "id" ++ ':' :: ccdToString bindingId ++ ['}']))) ++ ',' ::
  (ccdToString "origin" ++ ':' :: ccdToString origin ++ ',' ::
  (ccdToString "challenge" ++ ':' :: ccdToString challenge ++ ',' ::
  (ccdToString "type" ++ ':' :: ccdToString type ++ ['}']))))))

def boundDict (type challenge origin : String) : Dict := [(.str "x", .none),
  (.str "tokenBinding", .dict [(.str "status", .str "present"), (.str "id", .str bindingId)]),
  (.str "origin", .str origin), (.str "challenge", .str challenge), (.str "type", .str type)]

theorem jsonText_bound (type challenge origin : String) :
    JsonText (boundText type challenge origin) (.dict (boundDict type challenge origin)) := by
  have s : ∀ n x, IsValue n (ccdToString x) (.str x) := fun n x =>
    isValue_scalar (.str _ _ (isString_ccd x))
  have inner : IsValue 99 ('{' :: (ccdToString "status" ++ ':' :: ccdToString "present" ++ ',' ::
      (ccdToString "id" ++ ':' :: ccdToString bindingId ++ ['}'])))
      (.dict (dictOf [("status", .str "present"), ("id", .str bindingId)])) :=
    isValue_object (isMembers_cons (isString_ccd _) (s 98 _) (isMembers_last (isString_ccd _) (s 98 _)))
      (by simp only [List.map_cons, List.map_nil]; decide)
  exact jsonText_of (isValue_object (ms := [("x", .none), ("tokenBinding", .dict (dictOf [("status", .str "present"),
      ("id", .str bindingId)])), ("origin", .str origin), ("challenge", .str challenge),
      ("type", .str type)])
    (isMembers_cons (isString_ccd _) (isValue_scalar .null) (isMembers_cons (isString_ccd _) inner
      (isMembers_cons (isString_ccd _) (s _ _) (isMembers_cons (isString_ccd _) (s _ _)
        (isMembers_last (isString_ccd _) (s _ _))))))
    (by simp only [List.map_cons, List.map_nil]; decide))

def binding : ClientTokenBinding := ⟨.PRESENT, .str bindingId⟩

theorem clientData_bound (type challenge origin : String) :
    ClientDataText type challenge origin (some binding)
      (utf8Encode (boundText type challenge origin)) :=
  ⟨_, _, rfl, jsonText_bound type challenge origin, lookup_iff.mpr rfl, lookup_iff.mpr rfl,
    lookup_iff.mpr rfl, [(.str "status", .str "present"), (.str "id", .str bindingId)],
    lookup_iff.mpr rfl, Or.inr ⟨rfl, lookup_iff.mpr rfl, by simp [binding]⟩,
    Or.inl (lookup_iff.mpr rfl)⟩

/-! ## Extensions -/

def extMap : Dict := [(.str "appid", .bool true), (.str "uvi", .bytes [1, 2, 3])]
def exts : Extensions := { appid := some true, uvi := some [1, 2, 3] }
def extBytes : Bytes := (Cbor.enc (.dict extMap)).toOption.getD []

theorem extMap_exts : ExtensionsOf extMap exts := by
  have a : ∀ k, extMap.get? (.str k) = none → Missing extMap (.str k) :=
    fun k h => Or.inl (absent_iff.mpr h)
  refine ⟨?_, lookup_iff.mpr rfl, a _ rfl, a _ rfl, a _ rfl, a _ rfl, lookup_iff.mpr rfl, a _ rfl,
    a _ rfl, a _ rfl⟩
  intro kv hkv
  simp only [extMap, List.mem_cons, List.not_mem_nil, or_false] at hkv
  rcases hkv with rfl | rfl
  · exact ⟨"appid", by simp, rfl⟩
  · exact ⟨"uvi", by simp, rfl⟩

theorem extMap_plain : Plain (.dict extMap) := by
  refine .dict _ ?_ (by simp [extMap]) ?_
  · intro kv hkv
    simp only [extMap, List.mem_cons, List.not_mem_nil, or_false] at hkv
    rcases hkv with rfl | rfl <;> exact Or.inr ⟨_, rfl⟩
  · intro kv hkv
    simp only [extMap, List.mem_cons, List.not_mem_nil, or_false] at hkv
    rcases hkv with rfl | rfl
    · exact .bool _
    · exact .bytes _

theorem extBytes_enc : EncodedExtensions env exts extBytes :=
  ⟨extMap, extMap_exts, extMap_plain, rfl⟩

theorem exts_ok : ExtensionsOk (some [.UVI, .APPID]) (some exts) := by
  intro l hl i hi
  cases hl
  refine ⟨exts, rfl, ?_⟩
  simp only [List.mem_cons, List.not_mem_nil, or_false] at hi
  rcases hi with rfl | rfl <;> simp [HasExtension, exts]

/-! ## Registration -/

/-- UP, AT, ED set; counter 5. -/
def richRegAd : AuthData := ⟨rpHash, 0xc1, 5, some attested, some exts⟩

def richRegRaw : Bytes := rpHash ++ [0xc1] ++ [0, 0, 0, 5] ++
  (List.replicate 16 0xaa ++ [0, 4] ++ credId ++ keyBytes) ++ extBytes

theorem richRegRaw_enc : EncodedAuthData env richRegAd richRegRaw :=
  ⟨0xc1, [0, 0, 0, 5], _, extBytes, rfl, sha_length _, rfl, rfl, bigEndian_of rfl,
    ⟨by decide, [0, 4], key, keyBytes, rfl, rfl, rfl, bigEndian_of rfl, rfl, rfl, keyBytes_enc⟩,
    ⟨by decide, extBytes_enc⟩⟩

theorem richRegRaw_length : richRegRaw.length < 2 ^ 64 := by
  have : keyBytes.length = 77 := by decide
  have h2 : extBytes.length = 16 := by decide
  simp [richRegRaw, rpHash, show ∀ b, (sha b).length = 32 from sha_length, this, h2, credId]

theorem noneObject {raw : Bytes} (h : raw.length < 2 ^ 64) :
    EncodedNoneAttestation env raw ((Cbor.enc (.dict (objMap raw))).toOption.getD []) := by
  refine ⟨objMap raw, lookup_objMap rfl, lookup_objMap rfl, lookup_objMap rfl, objMap_plain _, ?_⟩
  obtain ⟨b, hb⟩ := objMap_enc h
  show Cbor.enc _ = _
  rw [hb]
  rfl

def richAttObj : Bytes := (Cbor.enc (.dict (objMap richRegRaw))).toOption.getD []

def origins : ExpectedOrigin := .many ["https://login.example.com:8443", origin]

theorem origins_ok : ExpectedOk env origins := by
  refine ⟨by simp [originList, origins], fun s hs => ?_⟩
  simp only [originList, origins, List.mem_cons, List.not_mem_nil, or_false] at hs
  rcases hs with rfl | rfl
  · exact ⟨_, originOf_serialises serialises_example⟩
  · exact ⟨_, origin_ok⟩

theorem origin_allowed : OriginAllowed env origins origin :=
  originAllowed_of origins_ok (by simp [originList, origins])

def richRegCdj : Bytes := utf8Encode (boundText "webauthn.create" challengeText origin)

def richRegArgs : AttestationArgs :=
  { credential := { id := "wdLj9A", type := "public-key", rawId := credId,
                    response := .attestation richRegCdj richAttObj },
    user, rp, expectedChallenge := challenge, expectedOrigin := origins,
    tokenBinding := some ⟨.PRESENT, some bindingId⟩,
    expectedExtensions := some [.UVI, .APPID] }

theorem rich_registration_ok (s : Store) (hs : lookup s credId = none) :
    handleAttestation env registrar richRegArgs s = (.ok (), (credId, stored 5) :: s) :=
  C52_honest_registration codec json (a := richRegArgs) rfl (clientData_bound _ _ _)
    challengeText_ok (noneObject richRegRaw_length) richRegRaw_enc
    rfl (rpHash_enc richRegRaw_enc rfl) (flagSet_enc richRegRaw_enc (by decide))
    (fun h => by cases h) exts_ok origins_ok origin_allowed (.withId _ _)
    (by
      show (match lookup s credId with | some _ => _ | none => _) = _
      rw [hs]
      rfl)

/-! ## Authentication -/

/-- UP, ED set; counter 4. -/
def richAuthAd : AuthData := ⟨rpHash, 0x81, 4, none, some exts⟩

def richAuthRaw : Bytes := rpHash ++ [0x81] ++ [0, 0, 0, 4] ++ [] ++ extBytes

theorem richAuthRaw_enc : EncodedAuthData env richAuthAd richAuthRaw :=
  ⟨0x81, [0, 0, 0, 4], [], extBytes, rfl, sha_length _, rfl, rfl, bigEndian_of rfl,
    ⟨by decide, rfl⟩, ⟨by decide, extBytes_enc⟩⟩

def richAuthCdj : Bytes := utf8Encode (boundText "webauthn.get" challengeText origin)

def richSignature : Bytes := sign pubKey (richAuthRaw ++ sha richAuthCdj)

def richAuthArgs : AssertionArgs :=
  { credential := { id := "wdLj9A", type := "public-key", rawId := credId,
                    response := .assertion richAuthCdj richAuthRaw richSignature none },
    expectedChallenge := challenge, expectedOrigin := origins,
    user := some { user with displayName := "Ada L." },
    tokenBinding := some ⟨.PRESENT, some bindingId⟩,
    expectedExtensions := some [.UVI, .APPID], ignoreCloneError := true }

/-- What was stored: the counter is larger, and the Relying Party is known. -/
def richStored (n : Nat) : CredentialData := ⟨key, some n, user, some rp⟩

theorem richSignature_ok : SignedBy env key richSignature (richAuthRaw ++ env.sha256 richAuthCdj) :=
  .ecdsa _ _ _ _ pubKey _ _ _ _ key_of rfl .es256 (check_sign pubKey (richAuthRaw ++ sha richAuthCdj))

theorem rich_authentication_ok (s : Store) :
    handleAssertion env registrar richAuthArgs ((credId, richStored 5) :: s) =
      (.ok (), (credId, richStored 4) :: (credId, richStored 5) :: s) := by
  refine C52_honest_authentication codec json (a := richAuthArgs) (cd := richStored 5)
    (s1 := (credId, richStored 5) :: s) (user := { user with displayName := "Ada L." }) (rp := rp)
    (ad := richAuthAd) ?_ (by intro l hl; cases hl)
    (rfl : richAuthArgs.credential.response = _) (clientData_bound _ _ _) challengeText_ok
    (.given _ _ rfl nofun) (.registered _) richAuthRaw_enc
    (rpHash_enc richAuthRaw_enc rfl) (flagSet_enc richAuthRaw_enc (by decide))
    (fun h => by cases h) exts_ok richSignature_ok ?_
    origins_ok origin_allowed (.withId _ _) ?_
  · show (Except.ok (lookup _ credId), _) = _
    rw [lookup_head]
  · intro n hn hi
    cases hi
  · simp only [registrar, richAuthArgs, lookup_head]
    rfl

end WebAuthn.Demo
