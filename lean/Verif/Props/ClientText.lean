import Verif.Spec.ClientText
import Verif.Model.RepairedClient
import Verif.Props.Ceremony
import Verif.Props.Demo
import Verif.Lemmas.OutcomeParse

/-!
# C92: a leading byte order mark of client data is stripped
-/

namespace WebAuthn.Props

open WebAuthn Spec

variable {env : Env} {cdj b : Bytes} {cd : ClientData}

/-! ## The mark in UTF-8 -/

theorem utf8_list {t : List Char} : Utf8 b (String.ofList t) ↔ b = t.utf8Encode.data.toList := by
  unfold Utf8
  rw [show (String.ofList t).toUTF8 = (String.ofList t).toByteArray from rfl, String.toByteArray_ofList]

theorem mark_bytes : ['\uFEFF'].utf8Encode.data.toList = byteOrderMark := by decide

theorem utf8_mark {t : List Char} (h : Utf8 b (String.ofList t)) :
    Utf8 (byteOrderMark ++ b) (String.ofList ('\uFEFF' :: t)) := by
  rw [utf8_list] at *
  rw [List.utf8Encode_cons, ByteArray.data_append, Array.toList_append, mark_bytes, h]

theorem utf8_marked {s : String} (h : Utf8 (byteOrderMark ++ b) s) :
    ∃ t, s = String.ofList ('\uFEFF' :: t) ∧ Utf8 b (String.ofList t) := by
  rw [← String.ofList_toList (s := s), utf8_list] at h
  have h1 : ['\uFEFF'].utf8Encode ++ ⟨b.toArray⟩ = s.toList.utf8Encode := by
    apply ByteArray.ext
    apply Array.ext'
    rw [ByteArray.data_append, Array.toList_append, mark_bytes, ← h]
  obtain ⟨t, ht⟩ := List.isPrefix_of_utf8Encode_append_eq_utf8Encode _ h1
  refine ⟨t, by rw [← String.ofList_toList (s := s), ← ht]; rfl, ?_⟩
  rw [utf8_list]
  rw [← ht, List.cons_append, List.nil_append, List.utf8Encode_cons, ByteArray.data_append, Array.toList_append,
    mark_bytes] at h
  exact List.append_cancel_left h

/-! ## The code -/

/-- C92, for client data without a byte order mark: they are read as the standard has it. -/
theorem C92_client_data_partial (h : ¬ Marked cdj) :
    parseClientData env cdj = .ok cd ↔ StandardClientData env cdj cd := by
  rw [parseClientData_ok_iff]
  constructor
  · exact fun hc => ⟨cdj, .plain _ h, hc⟩
  · rintro ⟨b, hu, hc⟩
    cases hu with
    | marked => exact absurd ⟨_, rfl⟩ h
    | plain => exact hc

/-- C92: all client data with a byte order mark are refused. -/
theorem C92_marked_refused (law : JsonRefusesMark env) (h : Marked cdj) :
    parseClientData env cdj = .error (.lib .decoding) := by
  obtain ⟨b, rfl⟩ := h
  rw [parseClientData_error_iff]
  by_cases hs : ∃ s, Utf8 (byteOrderMark ++ b) s
  · obtain ⟨s, hs⟩ := hs
    obtain ⟨t, rfl, -⟩ := utf8_marked hs
    exact Or.inr (Or.inl ⟨_, _, hs, law t, .caught .JSONDecodeError (by simp)
      (by simp [IsInstance, classesOf])⟩)
  · exact Or.inl ⟨fun t ht => hs ⟨t, ht⟩, rfl⟩

theorem unmarked_of (law : JsonRefusesMark env) (h : ClientDataOf env cdj cd) : ¬ Marked cdj := by
  intro hm
  rw [← parseClientData_ok_iff, C92_marked_refused law hm] at h
  cases h

/-- C92: registrations with such client data are refused, and leave the registrar alone. -/
theorem C92_registration_refused (law : JsonRefusesMark env) {σ : Type} {reg : Registrar σ}
    {a : AttestationArgs} {s : σ} {ob : Bytes} (he : ExpectedOk env a.expectedOrigin)
    (hr : a.credential.response = .attestation cdj ob) (h : Marked cdj) :
    handleAttestation env reg a s = (.error (.lib .decoding), s) := by
  obtain ⟨l, hl⟩ := expectedOk_iff.mp he
  have hc : attestationChecks env a = .error (.lib .decoding) := by
    unfold attestationChecks
    rw [hl, ok_bind, hr]
    unfold checkClientData
    simp only [Response.clientDataJSON]
    rw [C92_marked_refused law h]
    rfl
  unfold handleAttestation
  rw [hc]
  rfl

/-- C92: and nobody logs in with such client data. -/
theorem C92_login_refused (law : JsonRefusesMark env) {σ : Type} {reg : Registrar σ} {a : AssertionArgs}
    {s s' : σ} {raw sig : Bytes} {handle : Option Bytes}
    (hr : a.credential.response = .assertion cdj raw sig handle) (h : Marked cdj) :
    handleAssertion env reg a s ≠ (.ok (), s') := by
  intro hok
  obtain ⟨-, -, cd, s1, user, rp, ad, -, ⟨cdj', raw', sig', handle', h1, -, -, ⟨c, h2, -⟩, -⟩, -⟩ :=
    assertion_accepts.mp hok
  rw [hr] at h1
  cases h1
  exact unmarked_of law h2 h

/-! ## The repaired parser -/

theorem withoutMark_iff : Repaired.withoutMark cdj = b ↔ Unmarked cdj b := by
  constructor
  · rintro rfl
    unfold Repaired.withoutMark
    split
    · next rest => exact .marked rest
    · next b hb =>
      refine .plain _ ?_
      rintro ⟨rest, rfl⟩
      exact hb rest rfl
  · intro h
    cases h with
    | marked => rfl
    | plain _ h =>
      unfold Repaired.withoutMark
      split
      · next rest => exact absurd ⟨rest, rfl⟩ h
      · rfl

/-- C92, with the codec `'utf-8-sig'`: client data are read as the standard has it. -/
theorem C92_repaired_exact : ReadsClientData Repaired.parseClientData env := by
  intro cdj cd
  unfold Repaired.parseClientData StandardClientData
  rw [parseClientData_ok_iff]
  constructor
  · exact fun h => ⟨_, withoutMark_iff.mp rfl, h⟩
  · rintro ⟨b, hu, h⟩
    rw [withoutMark_iff.mpr hu]
    exact h

/-- C92: a byte order mark more or less makes no difference. -/
theorem C92_repaired_mark (h : ¬ Marked b) :
    Repaired.parseClientData env (byteOrderMark ++ b) = Repaired.parseClientData env b := by
  unfold Repaired.parseClientData
  rw [withoutMark_iff.mpr (.marked b), withoutMark_iff.mpr (.plain b h)]

/-- C92: the repaired parser keeps what the code reads, and everything else without a mark. -/
theorem C92_repaired_kept (h : ¬ Marked cdj) :
    Repaired.parseClientData env cdj = parseClientData env cdj := by
  unfold Repaired.parseClientData
  rw [withoutMark_iff.mpr (.plain cdj h)]

theorem standardClientData_unique {cd' : ClientData} (h : StandardClientData env cdj cd)
    (h' : StandardClientData env cdj cd') : cd = cd' :=
  Except.ok.inj (((C92_repaired_exact cdj cd).mpr h).symm.trans ((C92_repaired_exact cdj cd').mpr h'))

/-! ## A case -/

namespace Demo

theorem refuses_mark : JsonRefusesMark Demo.env := by
  intro t
  show Json.loads _ = _
  unfold Json.loads
  rw [String.toList_ofList]
  rfl

/-- C92 is false of the code: the client data of the registration of `Demo`, with a byte order mark
in front. -/
theorem C92_client_data_refuted : ¬ ReadsClientData parseClientData Demo.env := by
  intro h
  obtain ⟨-, o, raw, ⟨cdj, ob, h1, ⟨cd, h2, -⟩, -⟩, -⟩ := attestation_accepts.mp (Demo.registration_ok [] rfl)
  have h3 := (h (byteOrderMark ++ cdj) cd).mpr ⟨cdj, .marked cdj, h2⟩
  rw [C92_marked_refused refuses_mark ⟨cdj, rfl⟩] at h3
  cases h3

/-- The repaired parser reads them. -/
example : ∃ cd, Repaired.parseClientData Demo.env (byteOrderMark ++ Demo.regCdj) = .ok cd ∧
    cd.type = "webauthn.create" ∧
    parseClientData Demo.env (byteOrderMark ++ Demo.regCdj) = .error (.lib .decoding) ∧
    handleAttestation Demo.env Demo.registrar { Demo.regArgs with credential :=
      { Demo.regCredential with response := .attestation (byteOrderMark ++ Demo.regCdj) Demo.attObj } } [] =
      (.error (.lib .decoding), []) := by
  obtain ⟨he, o, raw, ⟨cdj, ob, h1, ⟨cd, h2, h3, -⟩, -⟩, -⟩ :=
    attestation_accepts.mp (Demo.registration_ok [] rfl)
  cases h1
  exact ⟨cd, (C92_repaired_exact _ _).mpr ⟨_, .marked _, h2⟩, h3,
    C92_marked_refused refuses_mark ⟨_, rfl⟩,
    C92_registration_refused refuses_mark he rfl ⟨_, rfl⟩⟩

end Demo

end WebAuthn.Props
