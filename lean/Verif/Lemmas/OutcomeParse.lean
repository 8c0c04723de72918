import Verif.Lemmas.OutcomeOrigin
import Verif.Lemmas.Exceptions
import Verif.Lemmas.Failure

/-!
# Errors of the parsers
-/

namespace WebAuthn

open WebAuthn.Spec

theorem utf8_unique {b : Bytes} {s t : String} (h : Utf8 b s) (h' : Utf8 b t) : s = t := by
  rw [← utf8Decode_ok_iff] at h h'
  rw [h] at h'
  exact Except.ok.inj h'

/-! ## Client data -/

theorem parseClientData_error_iff {env : Env} {cdj : Bytes} {x : Exc} :
    parseClientData env cdj = .error x ↔
      ((∀ t, ¬ Utf8 cdj t) ∧ x = .lib .decoding) ∨
      (∃ t e, Utf8 cdj t ∧ env.jsonLoads t = .error e ∧
        Translated [.UnicodeDecodeError, .JSONDecodeError] .decoding e x) ∨
      (∃ t v, Utf8 cdj t ∧ env.jsonLoads t = .ok v ∧ (∀ cd, ¬ ClientDataOf env cdj cd) ∧
        x = .lib .parser) := by
  have hp : ∀ e : Exc, e.isUnicodeOrJson = true ↔
      ∃ c ∈ [ExcClass.UnicodeDecodeError, .JSONDecodeError], IsInstance e c := by
    intro e
    rw [isUnicodeOrJson_iff]
    simp
  by_cases hu : ∃ t, Utf8 cdj t
  swap
  · have hn : ∀ t, ¬ Utf8 cdj t := fun t h => hu ⟨t, h⟩
    have : utf8Decode cdj = .error .unicodeDecodeError := by
      cases h : utf8Decode cdj with
      | ok t => exact absurd (utf8Decode_ok_iff.mp h) (hn t)
      | error e =>
        unfold utf8Decode at h
        split at h <;> cases h
        rfl
    have h2 : parseClientData env cdj = .error (.lib .decoding) := by
      unfold parseClientData
      rw [this]
      rfl
    rw [h2, Except.error.injEq]
    constructor
    · rintro rfl; exact Or.inl ⟨hn, rfl⟩
    · rintro (⟨-, rfl⟩ | ⟨t, -, h, -⟩ | ⟨t, -, h, -⟩)
      · rfl
      · exact absurd h (hn t)
      · exact absurd h (hn t)
  obtain ⟨t, ht⟩ := hu
  have hut : ∀ {t'}, Utf8 cdj t' → t' = t := fun h => utf8_unique h ht
  have h1 : parseClientData env cdj = (catching (env.jsonLoads t) Exc.isUnicodeOrJson .decoding >>=
      fun v => match v.asDict? with
      | none => raise .parser
      | some d =>
        match (d.get (.str "type")).asStr?, (d.get (.str "challenge")).asStr?,
            (d.get (.str "origin")).asStr? with
        | some type, some challenge, some origin => do
          let tokenBinding ← parseTokenBinding (d.get (.str "tokenBinding"))
          return { type, challenge, origin, tokenBinding }
        | _, _, _ => raise .parser) := by
    unfold parseClientData
    rw [utf8Decode_ok_iff.mpr ht, ok_bind]
    rfl
  cases hj : env.jsonLoads t with
  | error e =>
    have h2 : parseClientData env cdj = .error x ↔
        Translated [.UnicodeDecodeError, .JSONDecodeError] .decoding e x := by
      rw [h1, bind_error_iff, catching_translated hp, hj]
      constructor
      · rintro (⟨e', h, h'⟩ | ⟨a, h, -⟩)
        · cases h; exact h'
        · rw [catching_ok_iff] at h; cases h
      · intro h; exact Or.inl ⟨e, rfl, h⟩
    rw [h2]
    constructor
    · intro h; exact Or.inr (Or.inl ⟨t, e, ht, hj, h⟩)
    · rintro (⟨h, -⟩ | ⟨t', e', h, h3, h4⟩ | ⟨t', v, h, h3, -⟩)
      · exact absurd ht (h t)
      · rw [hut h, hj] at h3; cases h3; exact h4
      · rw [hut h, hj] at h3; cases h3
  | ok v =>
    have hr : Raises (parseClientData env cdj) IsParser := by
      rw [h1, hj]
      refine raises_bind (raises_ok _) fun v => ?_
      have hb : ∀ v, Raises (parseTokenBinding v) IsParser := by
        intro v
        unfold parseTokenBinding
        split
        · exact raises_ok _
        · split
          · exact raises_raise rfl
          · refine raises_bind (raises_require rfl) fun _ => raises_bind ?_ fun _ =>
              raises_bind (raises_require rfl) fun _ => raises_pure _
            refine raises_catching rfl fun e he => ?_
            unfold TokenBindingStatus.call at he
            intro hv
            repeat' split at he
            all_goals cases he
            all_goals cases hv
      split
      · exact raises_raise rfl
      · split
        · exact raises_bind (hb _) fun _ => raises_pure _
        · exact raises_raise rfl
    constructor
    · intro h
      refine Or.inr (Or.inr ⟨t, v, ht, hj, ?_, hr x h⟩)
      intro cd hcd
      rw [← parseClientData_ok_iff, h] at hcd
      cases hcd
    · rintro (⟨h, -⟩ | ⟨t', e', h, h3, h4⟩ | ⟨t', v, h, h3, h4, rfl⟩)
      · exact absurd ht (h t)
      · rw [hut h, hj] at h3; cases h3
      · cases hc : parseClientData env cdj with
        | ok cd => exact absurd (parseClientData_ok_iff.mp hc) (h4 cd)
        | error e => rw [hr e hc]

theorem parseClientData_refused_iff {env : Env} {cdj : Bytes} {x : Exc} :
    parseClientData env cdj = .error x ↔ ClientDataRefused env cdj x := by
  rw [parseClientData_error_iff]
  constructor
  · rintro (⟨h, rfl⟩ | ⟨t, e, h1, h2, h3⟩ | ⟨t, v, h1, h2, h3, rfl⟩)
    · exact .notText h
    · exact .notJson t e x h1 h2 h3
    · exact .notClientData t v h1 h2 h3
  · intro h
    cases h with
    | notText h => exact Or.inl ⟨h, rfl⟩
    | notJson t e _ h1 h2 h3 => exact Or.inr (Or.inl ⟨t, e, h1, h2, h3⟩)
    | notClientData t v h1 h2 h3 => exact Or.inr (Or.inr ⟨t, v, h1, h2, h3, rfl⟩)

theorem checkClientData_error_iff {env : Env} {cdj : Bytes} {type : String} {ch : Bytes}
    {e : ExpectedOrigin} {allowed : List Origin} {tb : Option TokenBinding} {x : Exc}
    (ha : extractAllowedOrigins env e = .ok allowed) :
    checkClientData env cdj type ch allowed tb = .error x ↔
      ClientRefused env cdj type ch e tb x := by
  constructor
  · intro h
    cases hp : parseClientData env cdj with
    | error y =>
      have h2 : checkClientData env cdj type ch allowed tb = .error y := by
        unfold checkClientData
        rw [hp, error_bind]
      rw [h2] at h
      cases h
      exact .notClientData _ (parseClientData_refused_iff.mp hp)
    | ok cd =>
      have hcd := parseClientData_ok_iff.mp hp
      cases ho : parseOrigin env cd.origin with
      | ok o =>
        rcases client_dichotomy type ch e tb hcd (parseOrigin_ok_iff.mp ho) with h1 | ⟨y, h1⟩
        · rw [(checkClientData_ok_iff (u := ()) ha).mpr h1] at h; cases h
        · rw [checkClientData_fails ha h1] at h
          cases h
          exact .check y h1
      | error y =>
        by_cases h1 : cd.type = type
        swap
        · have := ClientFails.type (env := env) (challenge := ch) (expected := e) (tb := tb) cd
            hcd h1
          rw [checkClientData_fails ha this] at h
          cases h
          exact .check _ this
        by_cases h2 : ∃ c, Base64UrlText cd.challenge c
        swap
        · have := ClientFails.decoding (env := env) (challenge := ch) (expected := e) (tb := tb) cd
            hcd h1 fun c hc => h2 ⟨c, hc⟩
          rw [checkClientData_fails ha this] at h
          cases h
          exact .check _ this
        obtain ⟨c, h2⟩ := h2
        by_cases h3 : c = ch
        swap
        · have := ClientFails.challenge (env := env) (challenge := ch) (expected := e) (tb := tb) cd
            c hcd h1 h2 h3
          rw [checkClientData_fails ha this] at h
          cases h
          exact .check _ this
        subst h3
        have h4 : checkClientData env cdj type c allowed tb = .error y := by
          unfold checkClientData
          rw [hp, ok_bind, require_true (by simpa using h1), ok_bind,
            (checkChallenge_ok_iff (u := ())).mpr h2, ok_bind, ho, error_bind]
        rw [h4] at h
        cases h
        exact .notOrigin cd _ hcd h1 h2 (parseOrigin_error_iff.mp ho)
  · have hpe : ∀ y, parseClientData env cdj = .error y →
        checkClientData env cdj type ch allowed tb = .error y := by
      intro y hy
      unfold checkClientData
      rw [hy, error_bind]
    intro h
    cases h with
    | notClientData _ h => exact hpe _ (parseClientData_refused_iff.mpr h)
    | notOrigin cd _ h1 h2 h3 h4 =>
      unfold checkClientData
      rw [parseClientData_ok_iff.mpr h1, ok_bind, require_true (by simpa using h2), ok_bind,
        (checkChallenge_ok_iff (u := ())).mpr h3, ok_bind, parseOrigin_error_iff.mpr h4, error_bind]
    | check y h => exact checkClientData_fails ha h

/-! ## Authenticator data -/

theorem readBytes_error_iff {n : Nat} {b : Bytes} {x : Exc} :
    readBytes n b = .error x ↔ b.length < n ∧ x = .eofError := by
  unfold readBytes
  split
  · next h => simp [h, eq_comm]
  · next h => simp [h]

/-- The two handlers around `cbor2.load` and the parser of the block. -/
theorem cborBlock_error {β : Type} {m : Py (PyVal × Bytes)} {f : PyVal × Bytes → Py β}
    {x : Exc} (hf : ∀ p, Raises (f p) fun e => ∃ l, e = .lib l) :
    catching (catching m Exc.isCborDecodeError .decoding >>= f) Exc.isEOFError .parser = .error x ↔
      (∃ e, m = .error e ∧ CborTranslated e x) ∨ ∃ p, m = .ok p ∧ f p = .error x := by
  rw [catching_translated (hp1 fun _ => isEOFError_iff)]
  simp only [bind_error_iff, catching_translated (hp1 fun _ => isCborDecodeError_iff),
    catching_ok_iff]
  constructor
  · rintro ⟨y, ⟨e, h1, h2⟩ | ⟨p, h1, h2⟩, h3⟩
    · exact Or.inl ⟨e, h1, y, h2, h3⟩
    · obtain ⟨l, rfl⟩ := hf p y h2
      cases h3 with
      | caught c h4 h5 =>
        simp only [List.mem_singleton] at h4
        subst h4
        simp [IsInstance, classesOf] at h5
      | passes => exact Or.inr ⟨p, h1, h2⟩
  · rintro (⟨e, h1, y, h2, h3⟩ | ⟨p, h1, h2⟩)
    · exact ⟨y, Or.inl ⟨e, h1, h2⟩, h3⟩
    · obtain ⟨l, rfl⟩ := hf p x h2
      refine ⟨_, Or.inr ⟨p, h1, h2⟩, .passes ?_⟩
      intro c hc
      simp only [List.mem_singleton] at hc
      subst hc
      simp [IsInstance, classesOf]

theorem validate_error {d : Dict} {k : CPK} (h : CoseKeyOf d k) {x : Exc} :
    validate k = .error x ↔ ¬ KeyConsistent k ∧ x = .lib .validation := by
  cases k with
  | base b => exact absurd h id
  | ec2 b xx y crv =>
    obtain ⟨⟨-, -, ⟨alg, v, ha, -⟩, -⟩, hk, -, hc, -⟩ := h
    have hcc : (crv.id == .P_256 || crv.id == .P_384 || crv.id == .P_521) = true := by
      rcases hc with hc | hc | hc <;> simp [hc]
    simp only [validate, ha, hk, pyAssert, beq_self_eq_true, if_true, ok_bind, bind_error_iff,
      require_error_iff, hcc, require_ok_iff, KeyConsistent, Option.some.injEq, exists_eq_left',
      true_and, Bool.true_eq_false, false_and, exists_const, false_or, IsEcdsaAlg, hc]
    cases hi : alg.id <;> simp
  | okp b crv xx =>
    obtain ⟨⟨-, -, ⟨alg, v, ha, -⟩, -⟩, hk, -, hc, -⟩ := h
    have hcc : (crv.id == .ED25519 || crv.id == .ED448) = true := by
      rcases hc with hc | hc <;> simp [hc]
    simp only [validate, ha, hk, pyAssert, beq_self_eq_true, if_true, ok_bind, bind_error_iff,
      require_error_iff, hcc, require_ok_iff, KeyConsistent, Option.some.injEq, exists_eq_left',
      true_and, Bool.true_eq_false, false_and, exists_const, false_or, hc]
    cases hi : alg.id <;> simp

/-- The part of `parseAttested` after `cbor2.load`. -/
def attestedTail (aaguid : Bytes) (len : Nat) (cid : Bytes) (p : PyVal × Bytes) :
    Py (AttestedCredentialData × Bytes) :=
  match p.1.asDict? with
  | none => raise .parser
  | some d => do
    let cpk ← parseCoseKeyDict d
    validate cpk
    return ({ aaguid, credentialIdLength := len, credentialId := cid,
              credentialPublicKey := some cpk }, p.2)

theorem attestedTail_error_iff {aaguid : Bytes} {len : Nat} {cid : Bytes} {v : PyVal}
    {rest : Bytes} {x : Exc} :
    attestedTail aaguid len cid (v, rest) = .error x ↔
      ((∀ d k, v = .dict d → ¬ CoseKeyOf d k) ∧ x = .lib .parser) ∨
      ∃ d k, v = .dict d ∧ CoseKeyOf d k ∧ ¬ KeyConsistent k ∧ x = .lib .validation := by
  unfold attestedTail
  cases hd : v.asDict? with
  | none =>
    have hn : ∀ d, v ≠ .dict d := by
      rintro d rfl
      cases hd
    simp [raise, hn, eq_comm]
  | some d =>
    rw [PyVal.asDict?_eq] at hd
    subst hd
    simp only [bind_error_iff, pure_eq_ok, reduceCtorEq, and_false, exists_false, or_false]
    constructor
    · rintro (h | ⟨k, h1, h2⟩)
      · refine Or.inl ⟨?_, raises_parseCoseKeyDict d x h⟩
        rintro d' k h1 h2
        cases h1
        rw [← parseCoseKeyDict_ok_iff, h] at h2
        cases h2
      · rw [parseCoseKeyDict_ok_iff] at h1
        rw [validate_error h1] at h2
        exact Or.inr ⟨d, k, rfl, h1, h2⟩
    · rintro (⟨h, rfl⟩ | ⟨d', k, h1, h2, h3⟩)
      · left
        cases hp : parseCoseKeyDict d with
        | ok k => exact absurd (parseCoseKeyDict_ok_iff.mp hp) (h d k rfl)
        | error e => rw [raises_parseCoseKeyDict d e hp]
      · cases h1
        exact Or.inr ⟨k, parseCoseKeyDict_ok_iff.mpr h2, (validate_error h2).mpr h3⟩

theorem attestedHead_iff {b tail : Bytes} : AttestedHead b tail ↔
    ∃ aa r1 len r2 cid, readBytes 16 b = .ok (aa, r1) ∧ readBytes 2 r1 = .ok (len, r2) ∧
      readBytes (beNat len) r2 = .ok (cid, tail) := by
  simp only [readBytes_ok_iff, AttestedHead, bigEndian_iff]
  constructor
  · rintro ⟨aa, len, cid, rfl, h1, h2, h3⟩
    exact ⟨aa, _, len, _, cid, ⟨by simp only [List.append_assoc], h1⟩, ⟨rfl, h2⟩, rfl, h3⟩
  · rintro ⟨aa, r1, len, r2, cid, ⟨rfl, h1⟩, ⟨rfl, h2⟩, rfl, h3⟩
    exact ⟨aa, len, cid, by simp only [List.append_assoc], h1, h2, h3⟩

theorem parseAttested_head {env : Env} {b tail : Bytes} (h : AttestedHead b tail) :
    ∃ aaguid len cid, parseAttested env b = catching (catching (env.cborLoad tail)
      Exc.isCborDecodeError .decoding >>= attestedTail aaguid len cid) Exc.isEOFError .parser := by
  rw [attestedHead_iff] at h
  obtain ⟨aa, r1, len, r2, cid, h1, h2, h3⟩ := h
  refine ⟨aa, beNat len, cid, ?_⟩
  unfold parseAttested
  simp only [h1, ok_bind, h2, h3]
  rfl

theorem parseAttested_short {env : Env} {b : Bytes} (h : ∀ tail, ¬ AttestedHead b tail) :
    parseAttested env b = .error (.lib .parser) := by
  simp only [attestedHead_iff] at h
  unfold parseAttested
  cases h1 : readBytes 16 b with
  | error e =>
    rw [readBytes_error_iff] at h1
    rw [h1.2]; rfl
  | ok p =>
    obtain ⟨aa, r1⟩ := p
    simp only [ok_bind]
    cases h2 : readBytes 2 r1 with
    | error e =>
      rw [readBytes_error_iff] at h2
      rw [h2.2]; rfl
    | ok p =>
      obtain ⟨len, r2⟩ := p
      simp only [ok_bind]
      cases h3 : readBytes (beNat len) r2 with
      | error e =>
        rw [readBytes_error_iff] at h3
        rw [h3.2]; rfl
      | ok p =>
        obtain ⟨cid, tail⟩ := p
        exact absurd ⟨aa, r1, len, r2, cid, h1, h2, h3⟩ (h tail)

theorem parseAttested_error_iff {env : Env} {b : Bytes} {x : Exc} :
    parseAttested env b = .error x ↔ AttestedRefused env b x := by
  by_cases hh : ∃ tail, AttestedHead b tail
  swap
  · have hn : ∀ tail, ¬ AttestedHead b tail := fun t h => hh ⟨t, h⟩
    rw [parseAttested_short hn]
    constructor
    · intro h; cases h; exact .short hn
    · intro h
      cases h with
      | short => rfl
      | notCbor tail _ _ h => exact absurd h (hn tail)
      | notKey tail _ _ h => exact absurd h (hn tail)
      | inconsistent tail _ _ _ h => exact absurd h (hn tail)
  obtain ⟨tail, hh⟩ := hh
  have huniq : ∀ {t}, AttestedHead b t → t = tail := by
    intro t ht
    rw [attestedHead_iff] at ht hh
    obtain ⟨aa, r1, len, r2, cid, h1, h2, h3⟩ := ht
    obtain ⟨aa', r1', len', r2', cid', h1', h2', h3'⟩ := hh
    rw [h1] at h1'; cases h1'
    rw [h2] at h2'; cases h2'
    rw [h3] at h3'; cases h3'
    rfl
  obtain ⟨aa, len, cid, hp⟩ := parseAttested_head (env := env) hh
  rw [hp, cborBlock_error]
  · constructor
    · rintro (⟨e, h1, h2⟩ | ⟨⟨v, rest⟩, h1, h2⟩)
      · exact .notCbor tail e x hh h1 h2
      · rcases attestedTail_error_iff.mp h2 with ⟨h3, rfl⟩ | ⟨d, k, rfl, h3, h4, rfl⟩
        · exact .notKey tail rest v hh h1 h3
        · exact .inconsistent tail rest d k hh h1 h3 h4
    · intro h
      cases h with
      | short h => exact absurd hh (h tail)
      | notCbor t e _ h h1 h2 => rw [huniq h] at h1; exact Or.inl ⟨e, h1, h2⟩
      | notKey t rest v h h1 h2 =>
        rw [huniq h] at h1
        exact Or.inr ⟨_, h1, attestedTail_error_iff.mpr (Or.inl ⟨h2, rfl⟩)⟩
      | inconsistent t rest d k h h1 h2 h3 =>
        rw [huniq h] at h1
        exact Or.inr ⟨_, h1, attestedTail_error_iff.mpr (Or.inr ⟨d, k, rfl, h2, h3, rfl⟩)⟩
  · rintro ⟨v, rest⟩ e he
    rcases attestedTail_error_iff.mp he with ⟨-, rfl⟩ | ⟨d, k, -, -, -, rfl⟩
    · exact ⟨_, rfl⟩
    · exact ⟨_, rfl⟩

theorem parseExtData_error_iff {env : Env} {b : Bytes} {x : Exc} :
    parseExtData env b = .error x ↔ ExtDataRefused env b x := by
  have key : ∀ (p : PyVal × Bytes) (e : Exc), (match p.1.asDict? with
      | none => raise .parser
      | some d => do return (← parseExtensions d, p.2) : Py (Extensions × Bytes)) = .error e ↔
      (∀ d e, p.1 = .dict d → ¬ ExtensionsOf d e) ∧ e = .lib .parser := by
    rintro ⟨v, rest⟩ e
    simp only
    cases hd : v.asDict? with
    | none =>
      have hn : ∀ d, v ≠ .dict d := by
        rintro d rfl
        cases hd
      simp [raise, hn, eq_comm]
    | some d =>
      rw [PyVal.asDict?_eq] at hd
      subst hd
      simp only [bind_error_iff, pure_eq_ok, reduceCtorEq, and_false, exists_false, or_false]
      constructor
      · intro h
        refine ⟨?_, raises_parseExtensions d e h⟩
        rintro d' k h1 h2
        cases h1
        rw [← parseExtensions_ok_iff, h] at h2
        cases h2
      · rintro ⟨h, rfl⟩
        cases hp : parseExtensions d with
        | ok k => exact absurd (parseExtensions_ok_iff.mp hp) (h d k rfl)
        | error e => rw [raises_parseExtensions d e hp]
  have h1 : parseExtData env b = catching (catching (env.cborLoad b) Exc.isCborDecodeError
      .decoding >>= fun p => match p.1.asDict? with
        | none => raise .parser
        | some d => do return (← parseExtensions d, p.2)) Exc.isEOFError .parser := rfl
  rw [h1, cborBlock_error]
  · simp only [key]
    constructor
    · rintro (⟨e, h1, h2⟩ | ⟨⟨v, rest⟩, h1, h2, rfl⟩)
      · exact .notCbor e x h1 h2
      · exact .notExtensions rest v h1 h2
    · intro h
      cases h with
      | notCbor e _ h1 h2 => exact Or.inl ⟨e, h1, h2⟩
      | notExtensions rest v h1 h2 => exact Or.inr ⟨_, h1, h2, rfl⟩
  · intro p e he
    rw [((key p e).mp he).2]
    exact ⟨_, rfl⟩

theorem optBlock_error_iff {α : Type} {flags : UInt8} {i : Nat} {f : Bytes → Py (α × Bytes)}
    {b : Bytes} {x : Exc} :
    optBlock (flags.toNat &&& 1 <<< i != 0) f b = .error x ↔
      flags.toNat.testBit i = true ∧ f b = .error x := by
  unfold optBlock
  by_cases h : flags.toNat.testBit i = true
  · rw [if_pos (by rw [bne_iff_ne]; exact (and_two_pow_ne_zero _ _).mpr h)]
    simp [bind_error_iff, pure_eq_ok, h]
  · rw [if_neg (by rw [bne_iff_ne]; exact mt (and_two_pow_ne_zero _ _).mp h)]
    simp [h]

theorem authHead_iff {raw : Bytes} {flags : UInt8} {body : Bytes} : AuthHead raw flags body ↔
    37 ≤ raw.length ∧ flags = raw.getD 32 0 ∧ body = raw.drop 37 := by
  constructor
  · rintro ⟨hash, count, rfl, h1, h2⟩
    refine ⟨by simp; omega, ?_, ?_⟩
    · simp [List.getD_eq_getElem?_getD, h1]
    · simp [List.drop_append, h1, h2]
  · rintro ⟨h, rfl, rfl⟩
    exact ⟨raw.take 32, (raw.drop 33).take 4, split37 h, by simp; omega, by simp; omega⟩

theorem parseAuthenticatorData_error_iff {env : Env} {raw : Bytes} {x : Exc} :
    parseAuthenticatorData env raw = .error x ↔ AuthDataRefused env raw x := by
  by_cases hl : 37 ≤ raw.length
  swap
  · have h1 : parseAuthenticatorData env raw = .error (.lib .parser) := by
      unfold parseAuthenticatorData
      rw [require_false (by simpa using hl), error_bind]
    have hn : ∀ f b, ¬ AuthHead raw f b := fun f b h => hl (authHead_iff.mp h).1
    rw [h1]
    constructor
    · intro h; cases h; exact .short (by omega)
    · intro h
      cases h with
      | short => rfl
      | attested _ _ _ h => exact absurd h (hn _ _)
      | extensions _ _ _ _ _ h => exact absurd h (hn _ _)
      | trailing _ _ _ _ _ _ h => exact absurd h (hn _ _)
  have hh : AuthHead raw (raw.getD 32 0) (raw.drop 37) := authHead_iff.mpr ⟨hl, rfl, rfl⟩
  unfold parseAuthenticatorData
  rw [require_true (by simpa using hl), ok_bind]
  simp only [flagAT, flagED, bind_error_iff, optBlock_error_iff, Prod.exists,
    block_iff (R := AttestedOf env) (fun _ _ _ => parseAttested_ok_iff),
    block_iff (R := ExtDataOf env) (fun _ _ _ => parseExtData_ok_iff),
    parseAttested_error_iff, parseExtData_error_iff, pure_eq_ok, reduceCtorEq, and_false,
    exists_false, or_false, require_error_iff, ← Bool.not_eq_true, take_one_eq_nil]
  constructor
  · rintro (⟨h1, h2⟩ | ⟨a, mid, h1, ⟨h2, h3⟩ | ⟨e, rest, h2, h3, rfl⟩⟩)
    · exact .attested _ _ _ hh h1 h2
    · exact .extensions _ _ mid a _ hh h1 h2 h3
    · exact .trailing _ _ mid rest a e hh h1 h2 h3
  · intro h
    cases h with
    | short h => omega
    | attested f b _ h h1 h2 =>
      obtain ⟨-, rfl, rfl⟩ := authHead_iff.mp h
      exact Or.inl ⟨h1, h2⟩
    | extensions f b mid a _ h h1 h2 h3 =>
      obtain ⟨-, rfl, rfl⟩ := authHead_iff.mp h
      exact Or.inr ⟨a, mid, h1, Or.inl ⟨h2, h3⟩⟩
    | trailing f b mid rest a e h h1 h2 h3 =>
      obtain ⟨-, rfl, rfl⟩ := authHead_iff.mp h
      exact Or.inr ⟨a, mid, h1, Or.inr ⟨e, rest, h2, h3, rfl⟩⟩

end WebAuthn
