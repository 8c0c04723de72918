import Verif.Lemmas.OutcomeInput
import Verif.Props.Keys

/-!
# C61: which inputs the parsers refuse, and how (credentials, keys, extensions, statements)
-/

namespace WebAuthn.Props

open WebAuthn WebAuthn.Spec

/-- C61: `parse_public_key_credential`. -/
theorem C61_credential {d : Dict} {x : Exc} :
    parsePublicKeyCredential d = .error x ↔ ∃ y, x = .lib y ∧ CredentialRefused d y :=
  parseCredential_error_iff

/-- C61: `parse_cose_key` of a dictionary. -/
theorem C61_cose_key {d : Dict} {x : Exc} :
    parseCoseKeyDict d = .error x ↔ x = .lib .parser ∧ ∀ k, ¬ CoseKeyOf d k :=
  parseCoseKeyDict_error_iff

/-- C61: `parse_cose_key` of bytes. -/
theorem C61_cose_key_bytes {env : Env} {b : Bytes} {x : Exc} :
    parseCoseKeyBytes env b = .error x ↔ KeyBytesRefused env b x :=
  parseCoseKeyBytes_error_iff

/-- C61: `parse_extensions`. -/
theorem C61_extensions {d : Dict} {x : Exc} :
    parseExtensions d = .error x ↔ x = .lib .parser ∧ ∀ e, ¬ ExtensionsOf d e :=
  error_iff_of (fun _ => parseExtensions_ok_iff) (raises_parseExtensions d)

/-- C61: `parse_attestation_statement`. -/
theorem C61_statement {fmt : Fmt} {d : Dict} {x : Exc} :
    parseAttStmt fmt d = .error x ↔ x = .lib .parser ∧ ∀ s, ¬ AttStmtOf fmt d s :=
  error_iff_of (fun _ => parseAttStmt_ok_iff) (raises_parseAttStmt fmt d)

/-! ## `cose_key` -/

theorem denotes_inj {α : Type} {code : α → Int × String} {v w : PyVal} {m : NV α}
    (h : Denotes code v m) (h' : Denotes code w m) : v = w := by
  rcases h with ⟨a, rfl, rfl⟩ | ⟨a, rfl, rfl⟩ <;> rcases h' with ⟨b, hb, rfl⟩ | ⟨b, hb, rfl⟩ <;>
    cases hb <;> rfl

theorem denotes_list_inj {α : Type} {code : α → Int × String} {l : List (NV α)} {v w : List PyVal}
    (h : List.Forall₂ (Denotes code) v l) (h' : List.Forall₂ (Denotes code) w l) : v = w := by
  induction h generalizing w with
  | nil => cases h'; rfl
  | cons h1 _ ih =>
    cases h' with
    | cons h2 h3 => rw [denotes_inj h1 h2, ih h3]

theorem headWritten_iff {b : KeyBase} {d : Dict} :
    buildBaseCoseDictionary b = .ok d ↔ HeadWritten b d := by
  obtain ⟨kty, kid, alg, ops, iv⟩ := b
  constructor
  · intro h
    cases alg with
    | none => cases h
    | some a =>
      cases h
      cases kid <;> cases ops
      · exact ⟨_, [], _, a, [], denotes_kty kty, rfl, denotes_alg a, rfl, rfl, rfl⟩
      · exact ⟨_, [], _, a, _, denotes_kty kty, rfl, denotes_alg a, rfl,
          ⟨_, forall₂_ops _, rfl⟩, by cases iv <;> rfl⟩
      · exact ⟨_, _, _, a, [], denotes_kty kty, rfl, denotes_alg a, rfl, rfl, rfl⟩
      · exact ⟨_, _, _, a, _, denotes_kty kty, rfl, denotes_alg a, rfl,
          ⟨_, forall₂_ops _, rfl⟩, by cases iv <;> rfl⟩
  · rintro ⟨k, i, a, al, o, h1, h2, h3, h4, h5, rfl⟩
    cases h2
    rw [denotes_inj h1 (denotes_kty kty), denotes_inj h3 (denotes_alg al)]
    cases kid <;> cases h4 <;> cases ops <;> [cases h5; skip; cases h5; skip]
    · rfl
    · obtain ⟨vs, h6, rfl⟩ := h5
      rw [denotes_list_inj h6 (forall₂_ops _)]
      cases iv <;> rfl
    · rfl
    · obtain ⟨vs, h6, rfl⟩ := h5
      rw [denotes_list_inj h6 (forall₂_ops _)]
      cases iv <;> rfl

theorem keyWritten_iff {k : CPK} {d : Dict} : coseKeyDict k = .ok d ↔ KeyWritten d k := by
  cases k with
  | ec2 b x y crv =>
    simp only [coseKeyDict, bind_ok_iff, headWritten_iff, pure_eq_ok, Except.ok.injEq]
    constructor
    · rintro ⟨head, h, rfl⟩
      exact ⟨head, _, h, denotes_crv crv, rfl⟩
    · rintro ⟨head, c, h, hc, rfl⟩
      rw [denotes_inj hc (denotes_crv crv)]
      exact ⟨head, h, rfl⟩
  | okp b crv x =>
    simp only [coseKeyDict, bind_ok_iff, headWritten_iff, pure_eq_ok, Except.ok.injEq]
    constructor
    · rintro ⟨head, h, rfl⟩
      exact ⟨head, _, h, denotes_crv crv, rfl⟩
    · rintro ⟨head, c, h, hc, rfl⟩
      rw [denotes_inj hc (denotes_crv crv)]
      exact ⟨head, h, rfl⟩
  | base b => exact ⟨fun h => (nomatch h), False.elim⟩

theorem head_error {b : KeyBase} {x : Exc} (h : buildBaseCoseDictionary b = .error x) :
    b.alg = none ∧ x = .assertionError := by
  obtain ⟨kty, kid, alg, ops, iv⟩ := b
  cases alg with
  | none => cases h; exact ⟨rfl, rfl⟩
  | some a => cases h

/-- C61: `cose_key`: the bytes, or the exception. -/
theorem C61_key_written {env : Env} {k : CPK} {r : Py Bytes} :
    coseKey env k = r ↔ KeyEncoded env k r := by
  constructor
  · rintro rfl
    cases hd : coseKeyDict k with
    | ok d =>
      have : coseKey env k = env.cborDumps (.dict d) := by simp only [coseKey, hd, ok_bind]
      rw [this]
      exact .encoded d (keyWritten_iff.mp hd)
    | error x =>
      have : coseKey env k = .error x := by simp only [coseKey, hd, error_bind]
      rw [this]
      cases k with
      | ec2 b x y crv =>
        simp only [coseKeyDict, bind_error_iff, pure_eq_ok, reduceCtorEq, and_false, exists_false,
          or_false] at hd
        obtain ⟨h1, rfl⟩ := head_error hd
        exact .noAlg b (Or.inl ⟨_, _, _, rfl⟩) h1
      | okp b crv x =>
        simp only [coseKeyDict, bind_error_iff, pure_eq_ok, reduceCtorEq, and_false, exists_false,
          or_false] at hd
        obtain ⟨h1, rfl⟩ := head_error hd
        exact .noAlg b (Or.inr ⟨_, _, rfl⟩) h1
      | base b =>
        cases hd
        exact .noKind b rfl
  · intro h
    cases h with
    | encoded d h => simp only [coseKey, keyWritten_iff.mpr h, ok_bind]
    | noAlg b h ha =>
      rcases h with ⟨x, y, crv, rfl⟩ | ⟨crv, x, rfl⟩ <;>
        simp only [coseKey, coseKeyDict, buildBaseCoseDictionary, ha, error_bind]
    | noKind b h =>
      subst h
      rfl

/-! ## Examples -/

/-- The raw id has a single base64 digit: `DecodingError`, although the response is
missing as well. -/
example : CredentialRefused [(.str "id", .str "x"), (.str "type", .str "public-key"),
    (.str "rawId", .str "A")] .decoding := by
  obtain ⟨y, h, hy⟩ := C61_credential.mp (rfl : parsePublicKeyCredential [(.str "id", .str "x"),
    (.str "type", .str "public-key"), (.str "rawId", .str "A")] = .error (.lib .decoding))
  cases h
  exact hy

/-- With a good raw id: `ParserError`. -/
example : CredentialRefused [(.str "id", .str "x"), (.str "type", .str "public-key"),
    (.str "rawId", .str "AAAA")] .parser := by
  obtain ⟨y, h, hy⟩ := C61_credential.mp (rfl : parsePublicKeyCredential [(.str "id", .str "x"),
    (.str "type", .str "public-key"), (.str "rawId", .str "AAAA")] = .error (.lib .parser))
  cases h
  exact hy

/-- An empty user handle member of the wrong type. -/
example : CredentialRefused [(.str "id", .str "x"), (.str "type", .str "public-key"),
    (.str "rawId", .str "AAAA"), (.str "response", .dict [(.str "clientDataJSON", .str "AAAA"),
      (.str "authenticatorData", .str "AAAA"), (.str "signature", .str "AAAA"),
      (.str "userHandle", .int 3)])] .parser := by
  obtain ⟨y, h, hy⟩ := C61_credential.mp (rfl : parsePublicKeyCredential [(.str "id", .str "x"),
    (.str "type", .str "public-key"),
    (.str "rawId", .str "AAAA"), (.str "response", .dict [(.str "clientDataJSON", .str "AAAA"),
      (.str "authenticatorData", .str "AAAA"), (.str "signature", .str "AAAA"),
      (.str "userHandle", .int 3)])] = .error (.lib .parser))
  cases h
  exact hy

/-- The empty map is no key; neither are the bytes that encode it. -/
example : parseCoseKeyDict [] = .error (.lib .parser) ∧ ∀ k, ¬ CoseKeyOf [] k :=
  ⟨rfl, (C61_cose_key.mp rfl).2⟩

example : KeyBytesRefused Demo.env [0xa0] (.lib .parser) := C61_cose_key_bytes.mp rfl

/-- The key of the example is written as a map of five entries. -/
example : KeyEncoded Demo.env Demo.key (Demo.env.cborDumps (.dict [(.int 1, .int 2),
    (.int 3, .int (-7)), (.int (-1), .int 1), (.int (-2), .bytes Demo.x),
    (.int (-3), .bytes Demo.y)])) := C61_key_written.mp rfl

/-- A key with operations and without an initialization vector gets a null in the map. -/
example : KeyEncoded Demo.env (.okp ⟨.value .OKP, some [9], some (.value .EDDSA),
    some [.value .VERIFY, .name .SIGN], none⟩ (.value .ED25519) Demo.x)
    (Demo.env.cborDumps (.dict [(.int 1, .int 1), (.int 2, .bytes [9]), (.int 3, .int (-8)),
      (.int 4, .list [.int 2, .str "sign"]), (.int 5, .none), (.int (-1), .int 6),
      (.int (-2), .bytes Demo.x)])) := C61_key_written.mp rfl

/-- A key without an algorithm. -/
example : KeyEncoded Demo.env (.ec2 ⟨.value .EC2, none, none, none, none⟩ Demo.x Demo.y
    (.value .P_256)) (.error .assertionError) := C61_key_written.mp rfl

/-- An integer is no extension output of the kind. -/
example : ∀ e, ¬ ExtensionsOf [(.str "appid", .int 1)] e := (C61_extensions.mp rfl).2

/-- A `none` statement has no members. -/
example : ∀ s, ¬ AttStmtOf .NONE [(.str "sig", .bytes [])] s := (C61_statement.mp rfl).2

end WebAuthn.Props
