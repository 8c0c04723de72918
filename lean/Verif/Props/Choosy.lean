import Verif.Model.Choosy
import Verif.Spec.Choosy
import Verif.Props.FlaskDemo

/-!
# The keys a Relying Party wants (C71, C72)
-/

namespace WebAuthn.Props

open Spec

/-! ## The checks -/

theorem algIn_iff {algs : List Alg} {k : CPK} : algIn algs k = true ↔ ∃ a ∈ algs, KeyAlg k a := by
  have key : ∀ o : Option (NV Alg), (o.any fun a => algs.contains a.id) = true ↔
      ∃ a ∈ algs, ∃ m, o = some m ∧ m.id = a := by
    intro o
    cases o <;> simp
  cases k <;> exact key _

theorem webAuthnKey_iff {k : CPK} (hc : KeyConsistent k) : webAuthnKey k = true ↔ Profile k := by
  cases k with
  | base b => exact hc.elim
  | ec2 b x y crv =>
    obtain ⟨-, hcrv, a, ha, -⟩ := hc
    simp only [webAuthnKey, ha, Option.any_some, Bool.and_eq_true, Option.isNone_iff_eq_none,
      List.contains_iff_mem, List.mem_cons, List.not_mem_nil, or_false, Prod.mk.injEq, Profile, baseOf,
      KeyAlg, HasCurve, Option.some.injEq, exists_eq_left', and_assoc, exists_and_left]
    refine and_congr_right fun _ => and_congr_right fun _ => and_congr_right fun _ => ?_
    constructor
    · rintro (⟨h1, h2⟩ | ⟨h1, h2⟩ | ⟨h1, h2⟩) <;> rw [h1, h2] <;> constructor
    · generalize a.id = a' at *
      generalize crv.id = crv' at *
      rintro ⟨⟩
      · exact Or.inl ⟨rfl, rfl⟩
      · exact Or.inr (Or.inl ⟨rfl, rfl⟩)
      · exact Or.inr (Or.inr ⟨rfl, rfl⟩)
      · rcases hcrv with h | h | h <;> cases h
  | okp b crv x =>
    obtain ⟨-, hcrv, a, ha, -⟩ := hc
    simp only [webAuthnKey, ha, Option.any_some, Bool.and_eq_true, Option.isNone_iff_eq_none,
      beq_iff_eq, Prod.mk.injEq, Profile, baseOf,
      KeyAlg, HasCurve, Option.some.injEq, exists_eq_left', and_assoc, exists_and_left]
    refine and_congr_right fun _ => and_congr_right fun _ => and_congr_right fun _ => ?_
    constructor
    · rintro ⟨h1, h2⟩
      rw [h1, h2]
      constructor
    · generalize a.id = a' at *
      generalize crv.id = crv' at *
      rintro ⟨⟩
      · rcases hcrv with h | h <;> cases h
      · rcases hcrv with h | h <;> cases h
      · rcases hcrv with h | h <;> cases h
      · exact ⟨rfl, rfl⟩

theorem attests_consistent {env : Env} {c : Credential} {k : CPK} (h : Attests env c k) :
    KeyConsistent k := by
  obtain ⟨cdj, ob, o, raw, acd, -, ⟨_, _, _, -, -, ⟨flags, count, body, mid, -, -, -, -, -, hb, -⟩, -⟩,
    ha, hk⟩ := h
  rw [ha] at hb
  obtain ⟨-, _, _, d, k', -, -, -, -, -, -, hk', -, hc⟩ := hb
  rw [hk] at hk'
  cases hk'
  exact hc

theorem attests_unique {env : Env} {c : Credential} {k k' : CPK} (h : Attests env c k)
    (h' : Attests env c k') : k = k' := by
  obtain ⟨cdj, ob, o, raw, acd, h1, h2, h3, h4⟩ := h
  obtain ⟨cdj', ob', o', raw', acd', h1', h2', h3', h4'⟩ := h'
  rw [h1] at h1'
  cases h1'
  rw [← parseAttestationObject_ok_iff] at h2 h2'
  rw [h2] at h2'
  cases h2'
  rw [h3] at h3'
  cases h3'
  rw [h4] at h4'
  exact Option.some.inj h4'

/-! ## What holds of the code -/

/-- C72, the part that holds: the key of a registration is of a family, elliptic curve keys
with an ECDSA algorithm and a NIST curve, or Edwards curve keys with EdDSA.  Missing: that
the curve is the one of the algorithm, and that there are no optional members
(`C72_profile_refuted`). -/
theorem C72_family_partial {σ : Type} {env : Env} {reg : Registrar σ} {a : AttestationArgs} {s s' : σ}
    (h : handleAttestation env reg a s = (.ok (), s')) :
    ∃ k, Attests env a.credential k ∧ KeyConsistent k := by
  obtain ⟨-, o, raw, ⟨cdj, ob, h1, -, h2, -, h3⟩, -, -⟩ := attestation_accepts.mp h
  obtain ⟨acd, h3⟩ := Option.ne_none_iff_exists'.mp h3
  have hk : ∃ k, acd.credentialPublicKey = some k := by
    obtain ⟨_, _, _, -, -, ⟨flags, count, body, mid, -, -, -, -, -, hb, -⟩, -⟩ := h2
    rw [h3] at hb
    obtain ⟨-, _, _, d, k', -, -, -, -, -, -, hk', -, hc⟩ := hb
    exact ⟨k', hk'⟩
  obtain ⟨k, hk⟩ := hk
  have : Attests env a.credential k := ⟨cdj, ob, o, raw, acd, h1, h2, h3, hk⟩
  exact ⟨k, this, attests_consistent this⟩

/-! ## Registrars that choose -/

section
variable {σ : Type} {env : Env} {reg : Registrar σ} {a : AttestationArgs} {s s' : σ}

/-- Exactly the registrations with a key that passes the check succeed. -/
theorem choosy_iff {good : CPK → Bool} :
    handleAttestation env (choosy good reg) a s = (.ok (), s') ↔
      handleAttestation env reg a s = (.ok (), s') ∧ ∃ k, Attests env a.credential k ∧ good k = true := by
  constructor
  · intro h
    obtain ⟨k, hk, -⟩ := C72_family_partial h
    obtain ⟨h0, o, raw, h1, h2, h3⟩ := attestation_accepts.mp h
    have h1' := h1
    obtain ⟨cdj, ob, g1, -, g2, -, g3⟩ := h1'
    obtain ⟨cdj', ob', o', raw', acd, e1, e2, e3, e4⟩ := hk
    rw [g1] at e1
    cases e1
    have e2' := e2
    rw [← parseAttestationObject_ok_iff] at g2 e2'
    rw [g2] at e2'
    cases e2'
    simp only [choosy, e3, Option.bind_some, e4] at h3
    split_ifs at h3 with hg
    · exact ⟨attestation_accepts.mpr ⟨h0, o, raw, h1, h2, h3⟩, k,
        ⟨cdj, ob, o, raw, acd, g1, e2, e3, e4⟩, hg⟩
    · cases h3
  · rintro ⟨h, k, hk, hg⟩
    obtain ⟨h0, o, raw, h1, h2, h3⟩ := attestation_accepts.mp h
    have h1' := h1
    obtain ⟨cdj, ob, g1, -, g2, -, g3⟩ := h1'
    obtain ⟨cdj', ob', o', raw', acd, e1, e2, e3, e4⟩ := hk
    rw [g1] at e1
    cases e1
    rw [← parseAttestationObject_ok_iff] at g2 e2
    rw [g2] at e2
    cases e2
    refine attestation_accepts.mpr ⟨h0, o, raw, h1, h2, ?_⟩
    simp only [choosy, e3, Option.bind_some, e4, hg, if_true]
    exact h3

/-- With a key that does not pass, nothing is stored. -/
theorem choosy_refused {good : CPK → Bool} {k : CPK} (hk : Attests env a.credential k)
    (hg : good k = false) : (handleAttestation env (choosy good reg) a s).2 = s := by
  unfold handleAttestation
  cases h : attestationChecks env a with
  | error e => rfl
  | ok r =>
    obtain ⟨-, ⟨raw, _, _, h1, -, h2, -⟩, -⟩ := attestationChecks_ok_iff.mp h
    obtain ⟨cdj, ob, o', raw', acd, e1, e2, e3, e4⟩ := hk
    rw [h1] at e1
    cases e1
    rw [← parseAttestationObject_ok_iff] at h2 e2
    rw [h2] at e2
    cases e2
    simp only [choosy, e3, Option.bind_some, e4, hg, Bool.false_eq_true, if_false]

/-- C71 for every registrar that is made to refuse other algorithms: exactly the
registrations with a key for a requested algorithm succeed. -/
theorem C71_registrar {algs : List Alg} :
    handleAttestation env (choosy (algIn algs) reg) a s = (.ok (), s') ↔
      handleAttestation env reg a s = (.ok (), s') ∧
        ∃ k, Attests env a.credential k ∧ ∃ alg ∈ algs, KeyAlg k alg := by
  rw [choosy_iff]
  simp only [algIn_iff]

/-- C71: with a key for another algorithm nothing is stored. -/
theorem C71_registrar_stores_nothing {algs : List Alg} {k : CPK} (hk : Attests env a.credential k)
    (h : ∀ alg ∈ algs, ¬ KeyAlg k alg) :
    (handleAttestation env (choosy (algIn algs) reg) a s).2 = s := by
  refine choosy_refused hk ?_
  rw [← Bool.not_eq_true, algIn_iff]
  rintro ⟨alg, h1, h2⟩
  exact h alg h1 h2

/-- C72 for every registrar that is made to refuse other keys: exactly the registrations
with a credential key of WebAuthn succeed. -/
theorem C72_registrar :
    handleAttestation env (choosy webAuthnKey reg) a s = (.ok (), s') ↔
      handleAttestation env reg a s = (.ok (), s') ∧ ∃ k, Attests env a.credential k ∧ Profile k := by
  rw [choosy_iff]
  refine and_congr_right fun _ => ⟨?_, ?_⟩
  · rintro ⟨k, hk, h⟩
    exact ⟨k, hk, (webAuthnKey_iff (attests_consistent hk)).mp h⟩
  · rintro ⟨k, hk, h⟩
    exact ⟨k, hk, (webAuthnKey_iff (attests_consistent hk)).mpr h⟩

/-- C72: with another key nothing is stored. -/
theorem C72_registrar_stores_nothing {k : CPK} (hk : Attests env a.credential k) (h : ¬ Profile k) :
    (handleAttestation env (choosy webAuthnKey reg) a s).2 = s := by
  refine choosy_refused hk ?_
  rw [← Bool.not_eq_true, webAuthnKey_iff (attests_consistent hk)]
  exact h

/-- With a key that passes the check, the registrar changes nothing. -/
theorem choosy_same {good : CPK → Bool} (hk : ∀ k, Attests env a.credential k → good k = true) :
    handleAttestation env (choosy good reg) a s = handleAttestation env reg a s := by
  cases hc : attestationChecks env a with
  | error e => simp only [handleAttestation, hc]
  | ok r =>
    have hr := attestationChecks_ok_iff.mp hc
    obtain ⟨-, ⟨raw, cdj, ob, g1, -, g2, -, g3⟩, -⟩ := hr
    obtain ⟨acd, g3⟩ := Option.ne_none_iff_exists'.mp g3
    have : (choosy good reg).registerAttestation r s = reg.registerAttestation r s := by
      simp only [choosy, g3, Option.bind_some]
      cases h4 : acd.credentialPublicKey with
      | none => rfl
      | some k => simp only [hk k ⟨cdj, ob, _, raw, acd, g1, g2, g3, h4⟩, if_true]
    simp only [handleAttestation, hc, this]

end

end WebAuthn.Props

namespace WebAuthn.Flask

open Spec Props

/-! ## The example application -/

/-- C71, the part that holds: the key that is registered is of a family.  Missing: that it
is for ES256 (`C71_requested_refuted`). -/
theorem C71_supported_partial {app : App} {evs : List Event} {e : Event} {id : Bytes} {name : String}
    {k : CPK} (h : Registers app evs e id name k) : KeyConsistent k := by
  obtain ⟨f, t, n, c, cdj, ob, o, raw, acd, -, -, -, -, h1, h2, h3, h4⟩ := h
  exact attests_consistent ⟨cdj, ob, o, raw, acd, h1, h2, h3, h4⟩

theorem choosyRun_snoc (good : CPK → Bool) (app : App) (evs : List Event) (e : Event) :
    choosyRun good app (evs ++ [e]) = (choosyStep good app e (choosyRun good app evs)).2 := by
  simp [choosyRun, List.foldl_append]

theorem readResponse_ne_success {app : App} {att : Bool} {f : Form} {t : Int} {db : Db} {r : Reply}
    (h : readResponse app att f t db = .error r) : r ≠ success := by
  unfold readResponse at h
  repeat' split at h
  all_goals first
    | (cases h; simp [success])
    | cases h

/-- The keys that the application registers pass the check. -/
theorem choosy_registers {good : CPK → Bool} {app : App} {evs : List Event} {e : Event} {id : Bytes}
    {name : String} {k : CPK} (h : RegistersBy (choosyReply good app) app evs e id name k) :
    good k = true := by
  obtain ⟨f, t, n, c, cdj, ob, o, raw, acd, rfl, hs, hf, -, h1, h2, h3, h4⟩ := h
  have hs : (choosyResponse good app f t (choosyRun good app evs)).1 = success := hs
  unfold choosyResponse at hs
  split at hs
  · rename_i r hr
    exact absurd hs (readResponse_ne_success hr)
  · rename_i c' ch u hr
    obtain ⟨n', name', hf', -⟩ := readResponse_ok_iff.mp hr
    obtain ⟨-, rfl, -⟩ := submits_unique hf hf'
    obtain ⟨-, k', hk, hg⟩ := choosy_iff.mp
      (Prod.ext (conclude_success.mp hs) rfl : handleAttestation _ _ _ _ = (.ok (), _))
    rw [attests_unique ⟨cdj, ob, o, raw, acd, h1, h2, h3, h4⟩ hk]
    exact hg

/-- C71 of the repaired application. -/
theorem C71_repaired (app : App) : RequestedOnly (choosyReply (algIn [.ES256]) app) app := by
  intro evs e id name k h
  obtain ⟨a, ha, h⟩ := algIn_iff.mp (choosy_registers h)
  cases List.mem_singleton.mp ha
  exact h

/-- C72 of the repaired application. -/
theorem C72_repaired {app : App} {evs : List Event} {e : Event} {id : Bytes} {name : String} {k : CPK}
    (h : RegistersBy (choosyReply webAuthnKey app) app evs e id name k) : Profile k := by
  refine (webAuthnKey_iff ?_).mp (choosy_registers h)
  obtain ⟨f, t, n, c, cdj, ob, o, raw, acd, -, -, -, -, h1, h2, h3, h4⟩ := h
  exact attests_consistent ⟨cdj, ob, o, raw, acd, h1, h2, h3, h4⟩

theorem choosyStep_same {good : CPK → Bool} {app : App} {e : Event} {db : Db}
    (h : ∀ k, Offers app [e] k → good k = true) : choosyStep good app e db = step app e db := by
  cases e with
  | registrationResponse f t =>
    show choosyResponse good app f t db = registrationResponse app f t db
    unfold choosyResponse registrationResponse
    split
    · rename_i r hr
      simp only [hr]
    · rename_i c ch u hr
      simp only [hr]
      obtain ⟨n, name, hf, -⟩ := readResponse_ok_iff.mp hr
      rw [choosy_same fun k hk => h k ⟨f, t, n, c, name, List.mem_singleton.mpr rfl, hf, hk⟩]
  | _ => rfl

theorem choosyReply_same {good : CPK → Bool} {app : App} {evs : List Event} {e : Event}
    (h : ∀ k, Offers app (evs ++ [e]) k → good k = true) : choosyReply good app evs e = reply app evs e := by
  have hrun : ∀ l, l <+: evs → choosyRun good app l = run app l := by
    intro l
    induction l using List.reverseRecOn with
    | nil => exact fun _ => rfl
    | append_singleton l a ih =>
      intro hl
      rw [choosyRun_snoc, ih ((List.prefix_append _ _).trans hl), run_snoc, choosyStep_same]
      rintro k ⟨f, t, n, c, name, hm, hr⟩
      refine h k ⟨f, t, n, c, name, ?_, hr⟩
      exact List.mem_append_left _ (hl.subset (List.mem_append_right _ hm))
  show (choosyStep good app e (choosyRun good app evs)).1 = (step app e (run app evs)).1
  rw [hrun evs List.prefix_rfl, choosyStep_same]
  rintro k ⟨f, t, n, c, name, hm, hr⟩
  exact h k ⟨f, t, n, c, name, List.mem_append_right _ hm, hr⟩

/-- The application repaired for C71 answers as the application does, when nobody offers a key
for another algorithm. -/
theorem C71_repaired_serves {app : App} {evs : List Event} {e : Event}
    (h : ∀ k, Offers app (evs ++ [e]) k → KeyAlg k .ES256) :
    choosyReply (algIn [.ES256]) app evs e = reply app evs e :=
  choosyReply_same fun k hk => algIn_iff.mpr ⟨_, List.mem_singleton.mpr rfl, h k hk⟩

/-- The same for C72. -/
theorem C72_repaired_serves {app : App} {evs : List Event} {e : Event}
    (h : ∀ k, Offers app (evs ++ [e]) k → Profile k) :
    choosyReply webAuthnKey app evs e = reply app evs e := by
  refine choosyReply_same fun k hk => (webAuthnKey_iff ?_).mpr (h k hk)
  obtain ⟨f, t, n, c, name, -, -, hk⟩ := hk
  exact attests_consistent hk

/-- A registration that succeeds is one at the handler. -/
theorem registration_handled {app : App} {evs : List Event} {f : Form} {t : Int} {n : Nat}
    {c : Credential} {name : String} (h : reply app evs (.registrationResponse f t) = success)
    (hf : Submits app f n c name) : ∃ db k ch u, handleAttestation app.env (registrar app.env)
      (attestationArgs c ch u) (run app evs) = (.ok (), db) ∧ Attests app.env c k := by
  have hs : (registrationResponse app f t (run app evs)).1 = success := h
  unfold registrationResponse at hs
  split at hs
  · rename_i r hr
    exact absurd hs (readResponse_ne_success hr)
  · rename_i c' ch u hr
    obtain ⟨n, name, hf', -⟩ := readResponse_ok_iff.mp hr
    obtain ⟨-, rfl, -⟩ := submits_unique hf hf'
    have h1 : handleAttestation _ _ _ _ = (.ok (), _) := Prod.ext (conclude_success.mp hs) rfl
    obtain ⟨k, hk, -⟩ := C72_family_partial h1
    exact ⟨_, k, ch, u, h1, hk⟩

/-! ## A key for another algorithm -/

namespace Es384

open Run

def x : Bytes := List.replicate 31 8 ++ [12]

/-- ES384 with the curve P-256, and a key id. -/
def keyMap : Dict :=
  [(.int 1, .int 2), (.int 2, .bytes [7]), (.int 3, .int (-35)), (.int (-1), .int 1), (.int (-2), .bytes x),
   (.int (-3), .bytes Demo.y)]

def key : CPK :=
  .ec2 { kty := .value .EC2, kid := some [7], alg := some (.value .ES384) } x Demo.y (.value .P_256)

theorem lookup_keyMap {n : Int} {v : PyVal} (h : keyMap.get? (.int n) = some v) :
    Lookup keyMap (.int n) v := lookup_iff.mpr h

theorem keyMap_key : CoseKeyOf keyMap key := by
  refine ⟨⟨⟨.int 2, lookup_keyMap rfl, Or.inl ⟨.EC2, rfl, rfl⟩⟩, lookup_keyMap rfl,
    ⟨_, .int (-35), rfl, lookup_keyMap rfl, Or.inl ⟨.ES384, rfl, rfl⟩⟩, ?_, ?_⟩, rfl,
    ⟨.int 1, lookup_keyMap rfl, Or.inl ⟨.P_256, rfl, rfl⟩⟩, Or.inl rfl, lookup_keyMap rfl,
    lookup_keyMap rfl, by decide, by decide⟩
  · exact Or.inl (absent_iff.mpr rfl)
  · exact Or.inl (absent_iff.mpr rfl)

theorem keyMap_plain : Plain (.dict keyMap) := by
  refine .dict _ ?_ (by simp [keyMap]) ?_
  · intro kv hkv
    simp only [keyMap, List.mem_cons, List.not_mem_nil, or_false] at hkv
    rcases hkv with rfl | rfl | rfl | rfl | rfl | rfl <;> exact Or.inl ⟨_, rfl⟩
  · intro kv hkv
    simp only [keyMap, List.mem_cons, List.not_mem_nil, or_false] at hkv
    rcases hkv with rfl | rfl | rfl | rfl | rfl | rfl
    · exact .int _
    · exact .bytes _
    · exact .int _
    · exact .int _
    · exact .bytes _
    · exact .bytes _

def keyBytes : Bytes := (Cbor.enc (.dict keyMap)).toOption.getD []

theorem keyBytes_enc : EncodedKey Demo.env key keyBytes :=
  ⟨keyMap, keyMap_key, ⟨rfl, Or.inl rfl, _, rfl, Or.inr (Or.inl rfl)⟩, keyMap_plain, rfl⟩

def credId : Bytes := [0xe3, 0xe4]

def attested : AttestedCredentialData := ⟨List.replicate 16 0xaa, 2, credId, some key⟩

def regAd : AuthData := ⟨rpHash, 0x41, 0, some attested, none⟩

def regRaw : Bytes :=
  rpHash ++ [0x41] ++ [0, 0, 0, 0] ++ (List.replicate 16 0xaa ++ [0, 2] ++ credId ++ keyBytes) ++ []

theorem regRaw_enc : EncodedAuthData app.env regAd regRaw :=
  ⟨0x41, [0, 0, 0, 0], _, [], rfl, Demo.sha_length _, rfl, rfl, Demo.bigEndian_of rfl,
    ⟨by decide, [0, 2], key, keyBytes, rfl, rfl, rfl, Demo.bigEndian_of rfl, rfl, rfl,
      keyBytes_enc⟩, ⟨by decide, rfl⟩⟩

def attObj : Bytes := (Cbor.enc (.dict (Demo.objMap regRaw))).toOption.getD []

theorem regRaw_length : regRaw.length < 2 ^ 64 := by
  have : keyBytes.length = 81 := by decide
  simp [regRaw, rpHash, show ∀ b, (Demo.sha b).length = 32 from Demo.sha_length, this, credId]

theorem attObj_enc : EncodedNoneAttestation app.env regRaw attObj := by
  refine ⟨Demo.objMap regRaw, Demo.lookup_objMap rfl, Demo.lookup_objMap rfl, Demo.lookup_objMap rfl,
    Demo.objMap_plain _, ?_⟩
  obtain ⟨b, hb⟩ := Demo.objMap_enc regRaw_length
  show Cbor.enc _ = _
  rw [attObj, hb]
  rfl

def regCredential : Credential :=
  { id := "4-Q", type := "public-key", rawId := credId,
    response := .attestation (clientData "webauthn.create" challenge1) attObj }

/-- Ada registers the key. -/
def e3 : Event := .registrationResponse (formOf "1" regCredential "ada") 5000

def storedKey : Bytes := (coseKey Demo.env key).toOption.getD []

theorem storedKey_eq : coseKey app.env key = .ok storedKey := rfl

theorem reply3 : reply app [e1, e2] e3 = success := by
  refine C56_registration (app := app) Demo.codec Demo.json (pre := []) (e := e1)
    (c := regCredential) (cdj := clientData "webauthn.create" challenge1) (ob := attObj)
    (acd := attested) (k := key) ⟨[e2], rfl⟩ issues1 ?_ (form1 _ _) rfl (clientData_text _ _)
    (C38_base64url_encoding _).1 attObj_enc regRaw_enc ?_ ?_ storedKey_eq ?_ ?_ ?_
  · decide
  · rfl
  · rfl
  · exact rpHash_enc regRaw_enc rfl
  · exact Demo.flagSet_enc regRaw_enc (by decide)
  · exact none_registered

theorem attObj_of : AttObjOf app.env attObj ⟨regAd, .NONE, .none⟩ regRaw := by
  obtain ⟨d, h1, h2, h3, h4, h5⟩ := attObj_enc
  have := (Demo.codec).roundTrip h4 h5 []
  rw [List.append_nil] at this
  exact ⟨d, [], [], this, h3, encodedAuthData_of Demo.codec regRaw_enc, h1, h2, rfl, rfl⟩

theorem registers3 : Registers app [e1, e2] e3 credId "ada" key :=
  ⟨_, _, _, regCredential, _, _, _, regRaw, attested, rfl, reply3, form1 _ _, rfl, rfl, attObj_of, rfl, rfl⟩

theorem attests : Attests app.env regCredential key :=
  ⟨_, _, _, regRaw, attested, rfl, attObj_of, rfl, rfl⟩

theorem not_es256 : ¬ KeyAlg key .ES256 := by
  rintro ⟨m, h1, h2⟩
  cases h1
  cases h2

end Es384

/-- C71 is false: the application asks for ES256 and registers a key for ES384. -/
theorem C71_requested_refuted :
    CodecLaws Run.app.env ∧ JsonLaw Run.app.env ∧ ¬ RequestedOnly (reply Run.app) Run.app :=
  ⟨Demo.codec, Demo.json, fun h => Es384.not_es256 (h _ _ _ _ _ Es384.registers3)⟩

/-- C72 is false: a key for ES384 on the curve P-256, with a key id, is registered. -/
theorem C72_profile_refuted :
    CodecLaws Run.app.env ∧ JsonLaw Run.app.env ∧ ¬ ProfileOnly Run.app.env := by
  refine ⟨Demo.codec, Demo.json, fun h => ?_⟩
  obtain ⟨s, k, ch, u, h1, h2⟩ := registration_handled Es384.reply3 (Run.form1 _ _)
  obtain rfl := attests_unique h2 Es384.attests
  obtain ⟨h3, -⟩ := h _ _ _ _ _ _ h1 h2
  cases h3

/-! ## Examples -/

namespace Run

theorem attests : Attests app.env (regCredential challenge1) Demo.key := by
  obtain ⟨d, h1, h2, h3, h4, h5⟩ := attObj_enc
  have := (Demo.codec).roundTrip h4 h5 []
  rw [List.append_nil] at this
  exact ⟨_, _, ⟨regAd, .NONE, .none⟩, regRaw, Demo.attested, rfl,
    ⟨d, [], [], this, h3, encodedAuthData_of Demo.codec regRaw_enc, h1, h2, rfl, rfl⟩, rfl, rfl⟩

theorem key_alg : KeyAlg Demo.key .ES256 := ⟨_, rfl, rfl⟩

theorem key_profile : Profile Demo.key := ⟨rfl, rfl, rfl, .ES256, .P_256, key_alg, rfl, .es256⟩

theorem offers {k : CPK} (h : Offers app ([e1, e2] ++ [e3]) k) : k = Demo.key := by
  obtain ⟨f, t, n, c, name, h1, h2, h3⟩ := h
  simp only [e1, e2, e3, List.mem_append, List.mem_cons, List.not_mem_nil, or_false, reduceCtorEq,
    false_or] at h1
  cases h1
  obtain ⟨-, rfl, -⟩ := submits_unique h2 (form1 _ _)
  exact attests_unique h3 attests

/-- The repaired applications register the key of Ada. -/
example : choosyReply (algIn [.ES256]) app [e1, e2] e3 = success := by
  rw [C71_repaired_serves fun k hk => offers hk ▸ key_alg]
  exact reply3

theorem choosy_reply3 : choosyReply webAuthnKey app [e1, e2] e3 = success := by
  rw [C72_repaired_serves fun k hk => offers hk ▸ key_profile]
  exact reply3

example : Profile Demo.key :=
  C72_repaired (app := app) (evs := [e1, e2]) (e := e3) (id := Demo.credId) (name := "ada") (by
    obtain ⟨cdj, ob, o, raw, acd, g1, g2, g3, g4⟩ := attests
    exact ⟨_, _, _, _, cdj, ob, o, raw, acd, rfl, choosy_reply3, form1 _ _, rfl, g1, g2, g3, g4⟩)

/-- They refuse the other. -/
example : choosyReply (algIn [.ES256]) app [e1, e2] Es384.e3 ≠ success := by
  intro h
  obtain ⟨cdj, ob, o, raw, acd, g1, g2, g3, g4⟩ := Es384.attests
  exact Es384.not_es256 (C71_repaired app _ _ _ _ _
    ⟨_, _, _, _, cdj, ob, o, raw, acd, rfl, h, form1 _ _, rfl, g1, g2, g3, g4⟩)

/-- A registration at the handler, with each registrar. -/
example : ∃ ch u db, handleAttestation app.env (choosy (algIn [.ES256, .EDDSA]) (registrar app.env))
      (attestationArgs (regCredential challenge1) ch u) (run app [e1, e2]) = (.ok (), db) ∧
    handleAttestation app.env (choosy webAuthnKey (registrar app.env))
      (attestationArgs (regCredential challenge1) ch u) (run app [e1, e2]) = (.ok (), db) := by
  obtain ⟨s, k, ch, u, h1, -⟩ := registration_handled reply3 (form1 _ _)
  exact ⟨ch, u, s, C71_registrar.mpr ⟨h1, _, attests, _, List.mem_cons_self, key_alg⟩,
    C72_registrar.mpr ⟨h1, _, attests, key_profile⟩⟩

example : KeyConsistent Es384.key := C71_supported_partial Es384.registers3

/-- The other key is not stored. -/
example (a : AttestationArgs) (ha : a.credential = Es384.regCredential) (db : Db) :
    (handleAttestation app.env (choosy (algIn [.ES256]) (registrar app.env)) a db).2 = db ∧
    (handleAttestation app.env (choosy webAuthnKey (registrar app.env)) a db).2 = db := by
  constructor
  · refine C71_registrar_stores_nothing (k := Es384.key) (ha ▸ Es384.attests) fun alg h => ?_
    cases List.mem_singleton.mp h
    exact Es384.not_es256
  · refine C72_registrar_stores_nothing (k := Es384.key) (ha ▸ Es384.attests) fun h => ?_
    cases h.1

end Run

end WebAuthn.Flask
