import Verif.Spec.Ordinary
import Verif.Lemmas.Backend
import Verif.Lemmas.Errors

/-!
# The checks raise only ordinary exceptions if the dependencies do
-/

namespace WebAuthn

open WebAuthn.Spec

/-- Not a bare `BaseException`. -/
abbrev NotBase (e : Exc) : Prop := ∀ n, e ≠ .base n

theorem notBase_lib (e : LibErr) : NotBase (.lib e) := fun _ h => by cases h

theorem raises_catching' {α : Type} {m : Py α} {p : Exc → Bool} {h : LibErr}
    (hm : Raises m NotBase) : Raises (catching m p h) NotBase :=
  raises_catching (notBase_lib h) fun e he _ => hm e he

theorem raises_parser {α : Type} {m : Py α} (h : Raises m IsParser) : Raises m NotBase :=
  h.mono fun e he => by rw [he]; exact notBase_lib _

theorem raises_valueError {α : Type} : Raises (.error .valueError : Py α) NotBase :=
  raises_error fun _ h => by cases h

theorem raises_splitNetloc (env : Env) (url : List Char) :
    Raises (splitNetloc env url) fun e => e = .valueError := by
  unfold splitNetloc
  split
  · simp only
    split_ifs <;> first | exact raises_error rfl | exact raises_ok _
  · exact raises_ok _

theorem raises_urlsplit (env : Env) (s : List Char) :
    Raises (urlsplit env s) fun e => e = .valueError := by
  unfold urlsplit
  simp only
  refine raises_bind (raises_splitNetloc env _) fun r => ?_
  split_ifs
  · exact raises_error rfl
  · exact raises_ok _

theorem raises_urlPort (s : List Char) : Raises (urlPort s) fun e => e = .valueError := by
  unfold urlPort
  simp only
  split_ifs <;> first | exact raises_error rfl | exact raises_ok _

/-- The errors of `parse_origin`: `OriginError`, or the `ValueError` of
`urlparse`. -/
theorem raises_parseOrigin (env : Env) (s : String) :
    Raises (parseOrigin env s) fun e => e = .lib .origin ∨ e = .valueError := by
  unfold parseOrigin
  split_ifs
  · exact raises_raise (Or.inl rfl)
  · refine raises_bind ((raises_urlsplit env _).mono fun _ => Or.inr) fun u => ?_
    split_ifs
    · exact raises_raise (Or.inl rfl)
    · exact raises_raise (Or.inl rfl)
    · exact raises_raise (Or.inl rfl)
    · exact raises_bind ((raises_urlPort _).mono fun _ => Or.inr) fun _ => raises_ok _

theorem originErr_notBase {e : Exc} (h : e = .lib .origin ∨ e = .valueError) : NotBase e := by
  rcases h with rfl | rfl <;> intro n h <;> cases h

theorem raises_extractAllowedOrigins (env : Env) (e : ExpectedOrigin) :
    Raises (extractAllowedOrigins env e) fun e => e = .lib .origin ∨ e = .valueError := by
  cases e with
  | one s => exact raises_bind (raises_parseOrigin env s) fun _ => raises_pure _
  | many l =>
    exact raises_bind (raises_require (P := fun e => e = .lib .origin ∨ e = .valueError)
      (Or.inl rfl)) fun _ => raises_mapM (raises_parseOrigin env) l

theorem raises_parseTokenBinding (v : PyVal) : Raises (parseTokenBinding v) NotBase := by
  unfold parseTokenBinding
  split_ifs
  · exact raises_ok _
  · split
    · exact raises_raise (notBase_lib _)
    · refine raises_bind (raises_require (notBase_lib _)) fun _ => raises_bind ?_ fun _ =>
        raises_bind (raises_require (notBase_lib _)) fun _ => raises_pure _
      refine raises_catching' ?_
      unfold TokenBindingStatus.call
      split
      · split_ifs <;> first | exact raises_ok _ | exact raises_valueError
      · exact raises_valueError

theorem raises_parseClientData {env : Env} (henv : OrdinaryEnv env) (b : Bytes) :
    Raises (parseClientData env b) NotBase := by
  unfold parseClientData
  refine raises_bind (raises_catching' (raises_bind ?_ fun _ => henv.jsonLoads _)) fun v => ?_
  · unfold utf8Decode
    split
    · exact raises_ok _
    · exact raises_error fun _ h => by cases h
  · split
    · exact raises_raise (notBase_lib _)
    · split
      · exact raises_bind (raises_parseTokenBinding _) fun _ => raises_pure _
      · exact raises_raise (notBase_lib _)

theorem raises_checkChallenge (c : String) (b : Bytes) : Raises (checkChallenge c b) NotBase := by
  refine raises_catching' (raises_bind (fun e he => ?_) fun _ => raises_require (notBase_lib _))
  have := urlBase64Decode_error he
  rintro n rfl
  cases this

theorem raises_checkTokenBinding (e : Option TokenBinding) (g : Option ClientTokenBinding) :
    Raises (checkTokenBinding e g) NotBase := by
  unfold checkTokenBinding
  split
  · split
    · exact raises_raise (notBase_lib _)
    · exact raises_bind (raises_require (notBase_lib _)) fun _ => raises_require (notBase_lib _)
  · exact raises_require (notBase_lib _)

theorem raises_checkClientData {env : Env} (henv : OrdinaryEnv env) (cdj : Bytes) (type : String)
    (ch : Bytes) (allowed : List Origin) (tb : Option TokenBinding) :
    Raises (checkClientData env cdj type ch allowed tb) NotBase :=
  raises_bind (raises_parseClientData henv cdj) fun _ =>
    raises_bind (raises_require (notBase_lib _)) fun _ =>
    raises_bind (raises_checkChallenge _ _) fun _ =>
    raises_bind ((raises_parseOrigin env _).mono fun _ => originErr_notBase) fun _ =>
    raises_bind (raises_require (notBase_lib _)) fun _ => raises_checkTokenBinding _ _

theorem raises_checkExtensions (e : Option (List ExtId)) (x : Option Extensions) :
    Raises (checkExtensions e x) NotBase := by
  unfold checkExtensions
  split
  · exact raises_ok _
  · exact raises_require (notBase_lib _)

theorem raises_checkAuthData (ad : AuthData) (h : Bytes) (uv : Bool) (e : Option (List ExtId)) :
    Raises (checkAuthData ad h uv e) NotBase :=
  raises_bind (raises_require (notBase_lib _)) fun _ =>
    raises_bind (raises_require (notBase_lib _)) fun _ =>
    raises_bind (raises_require (notBase_lib _)) fun _ => raises_checkExtensions _ _

theorem raises_readBytes (n : Nat) (b : Bytes) : Raises (readBytes n b) NotBase := by
  unfold readBytes
  split_ifs
  · exact raises_error fun _ h => by cases h
  · exact raises_ok _

theorem raises_validate (k : CPK) : Raises (validate k) NotBase := by
  have ha : ∀ b, Raises (pyAssert b) NotBase := by
    intro b e he
    unfold pyAssert at he
    split_ifs at he
    cases he
    intro n h
    cases h
  have hn : Raises (.error .assertionError : Py Unit) NotBase := raises_error fun _ h => by cases h
  have hr : ∀ b e, Raises (require b e) NotBase := fun _ _ => raises_require (notBase_lib _)
  cases k with
  | ec2 b x y crv =>
    refine raises_bind (ha _) fun _ => ?_
    split
    · exact hn
    · exact raises_bind (hr _ _) fun _ => hr _ _
  | okp b crv x =>
    refine raises_bind (ha _) fun _ => ?_
    split
    · exact hn
    · exact raises_bind (hr _ _) fun _ => hr _ _
  | base b => exact raises_raise (notBase_lib _)

theorem raises_parseAttested {env : Env} (henv : OrdinaryEnv env) (b : Bytes) :
    Raises (parseAttested env b) NotBase := by
  unfold parseAttested
  refine raises_catching' (raises_bind (raises_readBytes _ _) fun r1 => ?_)
  refine raises_bind (raises_readBytes _ _) fun r2 => raises_bind (raises_readBytes _ _) fun r3 => ?_
  refine raises_bind (raises_catching' (henv.cborLoad _)) fun r4 => ?_
  obtain ⟨v, rest⟩ := r4
  simp only
  split
  · exact raises_raise (notBase_lib _)
  · exact raises_bind (raises_parser (raises_parseCoseKeyDict _)) fun _ =>
      raises_bind (raises_validate _) fun _ => raises_pure _

theorem raises_parseExtData {env : Env} (henv : OrdinaryEnv env) (b : Bytes) :
    Raises (parseExtData env b) NotBase := by
  unfold parseExtData
  refine raises_catching' (raises_bind (raises_catching' (henv.cborLoad _)) fun r4 => ?_)
  obtain ⟨v, rest⟩ := r4
  simp only
  split
  · exact raises_raise (notBase_lib _)
  · exact raises_bind (raises_parser (raises_parseExtensions _)) fun _ => raises_pure _

theorem raises_optBlock {α : Type} {b : Bool} {f : Bytes → Py (α × Bytes)}
    (hf : ∀ r, Raises (f r) NotBase) (r : Bytes) : Raises (optBlock b f r) NotBase := by
  unfold optBlock
  split_ifs
  · exact raises_bind (hf r) fun _ => raises_pure _
  · exact raises_ok _

theorem raises_parseAuthenticatorData {env : Env} (henv : OrdinaryEnv env) (b : Bytes) :
    Raises (parseAuthenticatorData env b) NotBase := by
  unfold parseAuthenticatorData
  refine raises_bind (raises_require (notBase_lib _)) fun _ => ?_
  refine raises_bind (raises_optBlock (raises_parseAttested henv) _) fun _ => ?_
  refine raises_bind (raises_optBlock (raises_parseExtData henv) _) fun _ => ?_
  exact raises_bind (raises_require (notBase_lib _)) fun _ => raises_pure _

theorem raises_parseAttestationObject {env : Env} (henv : OrdinaryEnv env) (b : Bytes) :
    Raises (parseAttestationObject env b) NotBase := by
  have hidx : ∀ d k, Raises (dictIndex d k) NotBase := by
    intro d k
    unfold dictIndex
    split
    · exact raises_ok _
    · exact raises_error fun _ h => by cases h
  unfold parseAttestationObject
  refine raises_bind (raises_catching' ?_) fun v => ?_
  · intro e he
    unfold Env.cborLoads at he
    split at he
    · cases he
    · rename_i e' h'
      cases he
      exact henv.cborLoad _ _ h'
  split
  · exact raises_raise (notBase_lib _)
  · refine raises_bind (raises_catching' ?_) fun r => ?_
    · refine raises_bind (hidx _ _) fun _ => raises_bind (hidx _ _) fun _ =>
        raises_bind (hidx _ _) fun _ => ?_
      split
      · exact raises_raise (notBase_lib _)
      · refine raises_bind (raises_catching' ?_) fun _ => ?_
        · unfold Fmt.call
          split_ifs <;> first | exact raises_ok _ | exact raises_valueError
        · split
          · exact raises_raise (notBase_lib _)
          · exact raises_bind (raises_parseAuthenticatorData henv _) fun _ => raises_pure _
    · simp only
      split
      · exact raises_raise (notBase_lib _)
      · exact raises_bind (raises_parser (raises_parseAttStmt _ _)) fun _ => raises_pure _

theorem raises_cryptographyPublicKey {env : Env} (henv : OrdinaryEnv env) (k : CPK) :
    Raises (cryptographyPublicKey env k) NotBase := by
  cases k with
  | ec2 b x y crv =>
    refine raises_bind ?_ fun _ => raises_bind (raises_catching' (henv.ecPoint _ _ _)) fun _ =>
      raises_pure _
    unfold ec2CurveClass
    split <;> first | exact raises_ok _ | exact raises_raise (notBase_lib _)
  | okp b crv x =>
    refine raises_catching' ?_
    split
    · exact raises_bind (henv.ed25519Load _) fun _ => raises_pure _
    · exact raises_bind (henv.ed448Load _) fun _ => raises_pure _
    · exact raises_raise (notBase_lib _)
  | base b => exact raises_raise (notBase_lib _)

theorem raises_ec2HashAlgorithm (alg : NV Alg) : Raises (ec2HashAlgorithm alg) NotBase := by
  unfold ec2HashAlgorithm
  split <;> first | exact raises_ok _ | exact raises_error fun _ h => by cases h

theorem raises_verify {env : Env} (henv : OrdinaryEnv env) (k : CPK) (sig data : Bytes) :
    Raises (verify env k sig data) NotBase := by
  cases k with
  | ec2 b x y crv =>
    refine raises_bind (raises_cryptographyPublicKey henv _) fun _ => ?_
    split
    · exact raises_raise (notBase_lib _)
    · exact raises_bind (raises_ec2HashAlgorithm _) fun _ =>
        raises_catching' (henv.ecdsaVerify _ _ _ _)
  | okp b crv x =>
    exact raises_bind (raises_cryptographyPublicKey henv _) fun _ =>
      raises_catching' (henv.eddsaVerify _ _ _)
  | base b => exact raises_raise (notBase_lib _)

theorem raises_item (o : Asn1.Obj) (name : String) : Raises (o.item name) NotBase := by
  unfold Asn1.Obj.item
  split
  · split
    · exact raises_ok _
    · exact raises_error fun _ h => by cases h
  · exact raises_error fun _ h => by cases h

theorem raises_checkKeyDescription (kd : Asn1.Obj) (hash : Bytes) :
    Raises (checkKeyDescription kd hash) NotBase := by
  have hr : ∀ b e, Raises (require b e) NotBase := fun _ _ => raises_require (notBase_lib _)
  have ho : ∀ o : Asn1.Obj, Raises o.asOctets NotBase := by
    intro o
    unfold Asn1.Obj.asOctets
    split
    · exact raises_ok _
    · exact raises_error fun _ h => by cases h
  have hi : ∀ o : Asn1.Obj, Raises o.toInt NotBase := by
    intro o
    unfold Asn1.Obj.toInt
    split
    · exact raises_ok _
    · exact raises_error fun _ h => by cases h
  have hc : ∀ (o : Asn1.Obj) n, Raises (o.count n) NotBase := by
    intro o n
    unfold Asn1.Obj.count
    split
    · exact raises_ok _
    · exact raises_error fun _ h => by cases h
  unfold checkKeyDescription
  refine raises_bind (raises_item _ _) fun _ => raises_bind (ho _) fun _ => raises_bind (hr _ _) fun _ =>
    raises_bind (raises_item _ _) fun _ => raises_bind (raises_item _ _) fun _ =>
    raises_bind (raises_item _ _) fun _ => raises_bind (raises_item _ _) fun _ =>
    raises_bind (hr _ _) fun _ =>
    raises_bind (raises_item _ _) fun _ => raises_bind (raises_item _ _) fun _ =>
    raises_bind (raises_item _ _) fun _ => raises_bind (raises_item _ _) fun _ =>
    raises_bind (hr _ _) fun _ => raises_bind (hi _) fun _ => raises_bind (hr _ _) fun _ =>
    raises_bind (hr _ _) fun _ => raises_bind (hc _ _) fun _ => hr _ _

theorem raises_attest {env : Env} (henv : OrdinaryEnv env) (s : AttStmt) (o : AttObjArg)
    (raw hash : Bytes) : Raises (attest env s o raw hash) NotBase := by
  have hkey : Raises o.authData NotBase := by
    cases o with
    | attObj o => exact raises_ok _
    | key k => exact raises_error fun _ h => by cases h
  have hatt : ∀ ad, Raises (attestedOf ad) NotBase := by
    intro ad
    unfold attestedOf
    split
    · exact raises_ok _
    · exact raises_error fun _ h => by cases h
  have hassert : ∀ {α : Type}, Raises (.error .assertionError : Py α) NotBase :=
    raises_error fun _ h => by cases h
  have hu : ∀ {α : Type} e, Raises (raise e : Py α) NotBase := fun _ => raises_raise (notBase_lib _)
  have hr : ∀ b e, Raises (require b e) NotBase := fun _ _ => raises_require (notBase_lib _)
  cases s with
  | fidoU2F sig x5c =>
    simp only [attest]
    unfold attestFidoU2F
    split
    · intro e he
      rw [bind_error_iff] at he
      rcases he with he | ⟨cert, hc, he⟩
      · exact raises_catching' (henv.loadCert _) e he
      rw [catching_ok_iff] at hc
      rw [bind_error_iff] at he
      rcases he with he | ⟨pk, -, he⟩
      · exact henv.publicKey _ _ hc e he
      split at he
      · refine raises_bind (hr _ _) (fun _ => raises_bind hkey fun ad =>
          raises_bind (hatt ad) fun acd => ?_) e he
        split
        · exact hassert
        · rename_i k _
          refine raises_bind ?_ fun xy => raises_bind (raises_catching' (henv.ecdsaVerify _ _ _ _))
            fun _ => raises_pure _
          cases k <;> first | exact raises_ok _ | exact raises_error fun _ h => by cases h
      · exact hu _ e he
    · exact hu _
  | androidKey alg sig x5c =>
    simp only [attest]
    unfold attestAndroidKey
    split
    · exact hu _
    · intro e he
      rw [bind_error_iff] at he
      rcases he with he | ⟨cert, hc, he⟩
      · exact henv.loadCert _ e he
      rw [bind_error_iff] at he
      rcases he with he | ⟨pk, -, he⟩
      · exact henv.publicKey _ _ hc e he
      refine raises_bind (hr _ _) (fun _ => raises_bind hkey fun ad =>
        raises_bind (hatt ad) fun acd => ?_) e he
      have hrest : ∀ cpk, Raises (do
          androidVerify env alg sig pk (raw ++ hash)
          require (env.spki cpk == env.spki pk) .attestation
          let ext ← catching (do
            match ← cert.keyAttestationExt with
            | some raw => pure raw
            | none => .error .assertionError) isExtensionNotFound .attestation
          let kd ← catching (env.decodeDer Asn1.keyDescription ext) isPyAsn1Error .attestation
          checkKeyDescription ⟨Asn1.keyDescription, some kd⟩ hash
          return (AttestationType.BASIC, some [cert])) NotBase := by
        intro cpk
        refine raises_bind ?_ fun _ => raises_bind (hr _ _) fun _ =>
          raises_bind (raises_catching' (raises_bind (henv.keyAttestationExt _ _ hc) fun x => ?_))
            fun _ => raises_bind (raises_catching' (henv.decodeDer _ _)) fun _ =>
            raises_bind ?_ fun _ => raises_pure _
        · refine raises_catching' ?_
          split
          · exact henv.eddsaVerify _ _ _
          · exact henv.eddsaVerify _ _ _
          · exact raises_bind (raises_ec2HashAlgorithm _) fun _ => henv.ecdsaVerify _ _ _ _
          · exact hassert
        · split
          · exact raises_pure _
          · exact hassert
        · exact raises_checkKeyDescription _ _
      split
      · exact raises_bind (raises_cryptographyPublicKey henv _) hrest
      · exact hu _
  | none => exact raises_ok _
  | _ => exact hu _

/-! ## The ceremonies -/

theorem raises_attestationChecks {env : Env} (henv : OrdinaryEnv env) (a : AttestationArgs) :
    Raises (attestationChecks env a) NotBase := by
  unfold attestationChecks
  refine raises_bind ((raises_extractAllowedOrigins env _).mono fun _ => originErr_notBase)
    fun _ => raises_bind (raises_checkClientData henv _ _ _ _ _) fun _ => ?_
  refine raises_bind ?_ fun _ => raises_bind (raises_parseAttestationObject henv _) fun r => ?_
  · cases a.credential.response with
    | attestation => exact raises_ok _
    | assertion => exact raises_error fun _ h => by cases h
  · refine raises_bind (raises_checkAuthData _ _ _ _) fun _ => raises_bind ?_ fun _ =>
      raises_bind (raises_attest henv _ _ _ _) fun _ => raises_pure _
    unfold attestedOf
    split
    · exact raises_ok _
    · exact raises_error fun _ h => by cases h

theorem raises_assertionPre (env : Env) (a : AssertionArgs) :
    Raises (assertionPre env a) NotBase := by
  unfold assertionPre
  refine raises_bind ((raises_extractAllowedOrigins env _).mono fun _ => originErr_notBase)
    fun _ => ?_
  split
  · exact raises_pure _
  · exact raises_bind (raises_require (notBase_lib _)) fun _ => raises_pure _

theorem raises_assertionChecks {env : Env} (henv : OrdinaryEnv env) (a : AssertionArgs)
    (allowed : List Origin) (cd : CredentialData) :
    Raises (assertionChecks env a allowed cd) NotBase := by
  have hh : ∀ r : Response, Raises r.userHandle NotBase := by
    intro r
    cases r with
    | attestation => exact raises_error fun _ h => by cases h
    | assertion => exact raises_ok _
  have hr : ∀ b e, Raises (require b e) NotBase := fun _ _ => raises_require (notBase_lib _)
  unfold assertionChecks
  refine raises_bind ?_ fun _ => raises_bind ?_ fun _ =>
    raises_bind (raises_checkClientData henv _ _ _ _ _) fun _ => raises_bind ?_ fun _ =>
    raises_bind (raises_parseAuthenticatorData henv _) fun _ =>
    raises_bind (raises_checkAuthData _ _ _ _) fun _ => raises_bind ?_ fun _ =>
    raises_bind (raises_verify henv _ _ _) fun _ => raises_bind ?_ fun _ => raises_pure _
  · unfold resolveUser
    refine raises_bind ?_ fun _ => raises_bind (hh _) fun _ => raises_bind (hr _ _) fun _ =>
      raises_pure _
    unfold effectiveUser
    split
    · exact raises_bind (hr _ _) fun _ => raises_pure _
    · exact raises_bind (hh _) fun _ => raises_bind (hr _ _) fun _ => raises_pure _
  · unfold resolveRp
    split
    · exact raises_raise (notBase_lib _)
    · exact raises_ok _
    · exact raises_bind (hr _ _) fun _ => raises_pure _
    · exact raises_ok _
  · cases a.credential.response with
    | attestation => exact raises_error fun _ h => by cases h
    | assertion => exact raises_ok _
  · cases a.credential.response with
    | attestation => exact raises_error fun _ h => by cases h
    | assertion => exact raises_ok _
  · unfold checkSignCount
    split
    · exact raises_ok _
    · exact hr _ _

end WebAuthn
