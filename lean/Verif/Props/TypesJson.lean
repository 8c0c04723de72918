import Verif.Lemmas.TypesJson
import Verif.Model.Parsers

/-!
# Received data in JSON (C75)
-/

namespace WebAuthn.Props

open WebAuthn WebAuthn.Spec

/-- C75: every credential converts to JSON, in the form that clients send. -/
theorem C75_credential (c : Credential) :
    ∃ d, jsonify true c.toObj = .ok (.dict d) ∧ CredentialJson c (.dict d) := by
  obtain ⟨-, j, hj, hc⟩ := conv_credential c
  obtain ⟨d, rfl⟩ := members_dict hc
  exact ⟨d, hj, hc⟩

/-- C75: a JSON form of a credential, with its members in any order, is parsed into
this credential. -/
theorem C75_credential_parsed (c : Credential) (d : Dict) (h : CredentialJson c (.dict d)) :
    parsePublicKeyCredential d = .ok c :=
  parseCredential_ok_iff.mpr (credential_back h)

/-- C75: converting a credential to JSON and parsing the result gives it back. -/
theorem C75_credential_round_trip (c : Credential) (v : PyVal) (h : jsonify true c.toObj = .ok v) :
    ∃ d, v = .dict d ∧ parsePublicKeyCredential d = .ok c := by
  obtain ⟨d, hd, hc⟩ := C75_credential c
  rw [h] at hd
  cases hd
  exact ⟨d, rfl, C75_credential_parsed c d hc⟩

/-- C75: different credentials have different JSON forms. -/
theorem C75_credential_injective (c c' : Credential) (v : PyVal)
    (h : jsonify true c.toObj = .ok v) (h' : jsonify true c'.toObj = .ok v) : c = c' := by
  obtain ⟨d, rfl, h1⟩ := C75_credential_round_trip c v h
  obtain ⟨d', e, h2⟩ := C75_credential_round_trip c' _ h'
  cases e
  rw [h1] at h2
  exact Except.ok.inj h2

/-- C75: client data with a textual token binding. -/
theorem C75_client_data (type challenge origin : String) (tb : Option TokenBinding) :
    ∃ v, jsonify true (clientDataObj type challenge origin tb) = .ok v ∧
      ClientDataJson type challenge origin tb v :=
  (conv_clientData type challenge origin tb).2

/-- C75: keys. -/
theorem C75_key (k : CPK) : ∃ v, jsonify true k.toObj = .ok v ∧ KeyJson k v := (conv_key k).2

/-- C75: authenticator data. -/
theorem C75_authenticator_data (a : AuthData) :
    ∃ v, jsonify true a.toObj = .ok v ∧ AuthDataJson a v := (conv_authData a).2

/-- C75: attestation objects. -/
theorem C75_attestation_object (o : AttestationObject) :
    ∃ v, jsonify true o.toObj = .ok v ∧ AttestationJson o v := (conv_attestation o).2

/-- C75, the part that holds: all data types but origins convert to JSON, member by member, if
the sequences that the Relying Party passes are lists or tuples.  Missing: origins, see
`C75_refuted`. -/
theorem C75_all_partial (x : Datum) (hl : x.Listed) (ho : ∀ o, x ≠ .origin o) :
    ∃ v, jsonify true x.obj = .ok v ∧ DatumJson x v := by
  cases x with
  | rp r => exact (conv_rp r).2
  | user u => exact (conv_user u).2
  | parameters p => exact (conv_parameters p).2
  | descriptor d => exact (conv_descriptor d hl).2
  | creation o => exact (conv_creation o hl).2
  | request o => exact (conv_request o hl).2
  | credential c => exact (conv_credential c).2
  | response r => exact (conv_response r).2
  | tokenBinding t => exact (conv_tokenBinding t).2
  | clientData t c o tb => exact (conv_clientData t c o tb).2
  | key k => exact (conv_key k).2
  | attested a => exact (conv_attested a).2
  | coordinates c => exact (conv_coordinates c).2
  | outputs e => exact (conv_outputs e).2
  | authData a => exact (conv_authData a).2
  | stmt s => exact (conv_stmt s).2
  | attestation o => exact (conv_attestation o).2
  | selection s => exact (conv_selection s).2
  | inputs e => exact (conv_extensions e hl).2
  | txAuthGeneric t => exact (conv_txAuthGeneric t).2
  | perfBounds p => exact (conv_perfBounds p).2
  | origin o => exact absurd rfl (ho o)

/-- C75 as stated: `jsonify` converts all available data types. -/
def ConvertsAll : Prop := ∀ x : Datum, x.Listed → ∃ v, jsonify true x.obj = .ok v ∧ DatumJson x v

/-- C75 as stated is false: origins are refused. -/
theorem C75_refuted : ¬ ConvertsAll ∧
    ∀ o : Origin, jsonify true o.toObj = .error (.lib .unimplemented) := by
  have h : ∀ o : Origin, jsonify true o.toObj = .error (.lib .unimplemented) := fun o => by
    rw [Origin.toObj, jsonify]
    rfl
  refine ⟨fun ha => ?_, h⟩
  obtain ⟨v, hv, _⟩ := ha (.origin ⟨"https", "a.example", 443⟩) trivial
  rw [Datum.obj, h] at hv
  cases hv

/-- C75: with a `jsonify` that takes named tuples by their fields, all data types convert. -/
theorem C75_repaired (x : Datum) (hl : x.Listed) :
    ∃ v, jsonify true x.fieldsObj = .ok v ∧ DatumJson x v := by
  by_cases ho : ∀ o, x ≠ .origin o
  · have h : x.fieldsObj = x.obj := by
      cases x <;> first | rfl | exact absurd rfl (ho _)
    rw [h]
    exact C75_all_partial x hl ho
  · simp only [ne_eq, not_forall, not_not] at ho
    obtain ⟨o, rfl⟩ := ho
    exact (conv_inst (fields := [("scheme", some (IsText o.scheme)),
      ("hostname", some (IsText o.hostname)), ("port", some (IsInt o.port))])
      (.cons (field_some rfl (conv_str _)) (.cons (field_some rfl (conv_str _))
      (.cons (field_some rfl (conv_int _)) .nil))) (by simp)).2

/-- C75: and nothing changes for the objects that convert as it is. -/
theorem C75_repaired_same (x : Datum) (v : PyVal) (h : jsonify true x.obj = .ok v) :
    jsonify true x.fieldsObj = .ok v := by
  cases x with
  | origin o =>
    rw [Datum.obj, C75_refuted.2] at h
    cases h
  | _ => exact h

namespace TypesJson

/-- A response to an authentication. -/
def credential : Credential where
  id := "AQID"
  type := "public-key"
  rawId := [1, 2, 3]
  response := .assertion [123, 125] [0, 255] [9] (some [7])

theorem credential_json : jsonify true credential.toObj = .ok (.dict [
    (.str "id", .str "AQID"), (.str "type", .str "public-key"), (.str "rawId", .str "AQID"),
    (.str "response", .dict [(.str "clientDataJSON", .str "e30="),
      (.str "authenticatorData", .str "AP8="), (.str "signature", .str "CQ=="),
      (.str "userHandle", .str "Bw==")])]) := by
  rfl

example : ∃ d, PyVal.dict [
    (.str "id", .str "AQID"), (.str "type", .str "public-key"), (.str "rawId", .str "AQID"),
    (.str "response", .dict [(.str "clientDataJSON", .str "e30="),
      (.str "authenticatorData", .str "AP8="), (.str "signature", .str "CQ=="),
      (.str "userHandle", .str "Bw==")])] = .dict d ∧
    parsePublicKeyCredential d = .ok credential :=
  C75_credential_round_trip credential _ credential_json

/-- Without a user handle there is no such member. -/
example : ∃ d, jsonify true { credential with response := .assertion [123, 125] [] [9] none }.toObj =
    .ok (.dict d) ∧ parsePublicKeyCredential d =
      .ok { credential with response := .assertion [123, 125] [] [9] none } := by
  obtain ⟨d, h, hc⟩ := C75_credential { credential with response := .assertion [123, 125] [] [9] none }
  exact ⟨d, h, C75_credential_parsed _ d hc⟩

/-- A key. -/
def key : CPK :=
  .ec2 { kty := .value .EC2, alg := some (.name .ES256), keyOps := some [.value .VERIFY] } [1] [2]
    (.value .P_256)

/-- An attestation object with an attested key, extensions and certificates. -/
def attestation : AttestationObject where
  authData := {
    rpIdHash := [1]
    flags := 193
    signCount := 5
    attested := some ⟨[0], 1, [8], some key⟩
    extensions := some { exts := some ["uvm"], uvm := some [[1, 2, 3]] } }
  fmt := .FIDO_U2F
  attStmt := .fidoU2F [3] [[4]]

example : jsonify true attestation.toObj = .ok (.dict [
    (.str "authData", .dict [(.str "rpIdHash", .str "AQ=="), (.str "flags", .int 193),
      (.str "signCount", .int 5),
      (.str "attestedCredentialData", .dict [(.str "aaguid", .str "AA=="),
        (.str "credentialIdLength", .int 1), (.str "credentialId", .str "CA=="),
        (.str "credentialPublicKey", .dict [(.str "kty", .int 2), (.str "alg", .str "ES256"),
          (.str "keyOps", .list [.int 2]), (.str "x", .str "AQ=="), (.str "y", .str "Ag=="),
          (.str "crv", .int 1)])]),
      (.str "extensions", .dict [(.str "exts", .list [.str "uvm"]),
        (.str "uvm", .list [.list [.int 1, .int 2, .int 3]])])]),
    (.str "fmt", .str "fido-u2f"),
    (.str "attStmt", .dict [(.str "sig", .str "Aw=="), (.str "x5c", .list [.str "BA=="])])]) := by
  rfl

example : ∃ v, jsonify true (Datum.obj (.attestation attestation)) = .ok v ∧
    AttestationJson attestation v :=
  C75_all_partial (.attestation attestation) trivial nofun

/-- The repaired function shows an origin. -/
example : jsonify true (Datum.fieldsObj (.origin ⟨"https", "a.example", 443⟩)) = .ok (.dict [
    (.str "scheme", .str "https"), (.str "hostname", .str "a.example"), (.str "port", .int 443)]) :=
  rfl

example : ∃ v, jsonify true (Datum.fieldsObj (.origin ⟨"https", "a.example", 443⟩)) = .ok v ∧
    OriginJson ⟨"https", "a.example", 443⟩ v :=
  C75_repaired (.origin _) trivial

example : ∃ v, jsonify true (clientDataObj "webauthn.get" "AQ" "https://a.example"
    (some ⟨.PRESENT, some "x"⟩)) = .ok v ∧
    ClientDataJson "webauthn.get" "AQ" "https://a.example" (some ⟨.PRESENT, some "x"⟩) v :=
  C75_client_data _ _ _ _

end TypesJson

end WebAuthn.Props
