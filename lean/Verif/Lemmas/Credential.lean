import Verif.Lemmas.Base64
import Verif.Lemmas.Wire

/-!
# Client credentials: the parser and the specification agree
-/

namespace WebAuthn

open WebAuthn.Spec

theorem bytesFromBase64_ok_iff {s : String} {b : Bytes} :
    bytesFromBase64 s = .ok b ↔ Base64Text s b := by
  rw [bytesFromBase64, catching_ok_iff, b64decode_ok_iff]

theorem base64Member_iff {d : Dict} {k : String} {b : Bytes} :
    (∃ t, field PyVal.asStr? (.str k) d = .ok t ∧ bytesFromBase64 t = .ok b) ↔
      Base64Member d k b := by
  simp only [fieldStr, bytesFromBase64_ok_iff, Base64Member]

/-- `parse_public_key_credential` succeeds exactly on credentials. -/
theorem parseCredential_ok_iff {d : Dict} {c : Credential} :
    parsePublicKeyCredential d = .ok c ↔ CredentialOf d c := by
  unfold parsePublicKeyCredential CredentialOf
  simp only [bind_ok_iff, checkUnsupportedKeys_ok_iff, fieldStr, fieldDict, bytesFromBase64_ok_iff]
  constructor
  · rintro ⟨_, hk, id, hid, type, htype, t, ht, raw, hraw, rd, hrd, t', ht', cdj, hcdj, h⟩
    split at h
    · simp only [bind_ok_iff, checkUnsupportedKeys_ok_iff, fieldStr, bytesFromBase64_ok_iff,
        pure_eq_ok, Except.ok.injEq] at h
      obtain ⟨_, hk', t'', ht'', ob, hob, rfl⟩ := h
      exact ⟨hk, hid, htype, ⟨t, ht, hraw⟩, rd, hrd, hk', ⟨t', ht', hcdj⟩, ⟨t'', ht'', hob⟩⟩
    · simp only [bind_ok_iff, checkUnsupportedKeys_ok_iff, fieldStr, bytesFromBase64_ok_iff,
        pure_eq_ok, fieldOptStr] at h
      obtain ⟨_, hk', t1, ht1, ad, had, t2, ht2, sig, hsig, o, ho, h⟩ := h
      cases o with
      | none =>
        simp only at h
        cases h
        exact ⟨hk, hid, htype, ⟨t, ht, hraw⟩, rd, hrd, hk', ⟨t', ht', hcdj⟩, ⟨t1, ht1, had⟩,
          ⟨t2, ht2, hsig⟩, ho⟩
      | some s =>
        simp only [bind_ok_iff, bytesFromBase64_ok_iff, Except.ok.injEq] at h
        obtain ⟨u, hu, _, rfl, rfl⟩ := h
        exact ⟨hk, hid, htype, ⟨t, ht, hraw⟩, rd, hrd, hk', ⟨t', ht', hcdj⟩, ⟨t1, ht1, had⟩,
          ⟨t2, ht2, hsig⟩, ⟨s, ho, hu⟩⟩
  · obtain ⟨id, type, raw, resp⟩ := c
    rintro ⟨hk, hid, htype, ⟨t, ht, hraw⟩, rd, hrd, h⟩
    cases resp with
    | attestation cdj ob =>
      obtain ⟨hk', ⟨t', ht', hcdj⟩, t'', ht'', hob⟩ := h
      refine ⟨(), hk, id, hid, type, htype, t, ht, raw, hraw, rd, hrd, t', ht', cdj, hcdj, ?_⟩
      rw [if_pos (has_iff.mpr (not_absent_of_lookup ht''))]
      simp only [bind_ok_iff, checkUnsupportedKeys_ok_iff, fieldStr, bytesFromBase64_ok_iff,
        pure_eq_ok, Except.ok.injEq]
      exact ⟨(), hk', t'', ht'', ob, hob, rfl⟩
    | assertion cdj ad sig handle =>
      obtain ⟨hk', ⟨t', ht', hcdj⟩, ⟨t1, ht1, had⟩, ⟨t2, ht2, hsig⟩, hh⟩ := h
      refine ⟨(), hk, id, hid, type, htype, t, ht, raw, hraw, rd, hrd, t', ht', cdj, hcdj, ?_⟩
      rw [has_false_iff.mpr (absent_of_onlyKeys hk' (by simp)), if_neg (by simp)]
      simp only [bind_ok_iff, checkUnsupportedKeys_ok_iff, fieldStr, bytesFromBase64_ok_iff,
        pure_eq_ok, fieldOptStr]
      cases handle with
      | none =>
        refine ⟨(), hk', t1, ht1, ad, had, t2, ht2, sig, hsig, none, hh, ?_⟩
        simp
      | some u =>
        obtain ⟨s, hs, hu⟩ := hh
        refine ⟨(), hk', t1, ht1, ad, had, t2, ht2, sig, hsig, some s, hs, ?_⟩
        simp only [bind_ok_iff, bytesFromBase64_ok_iff, Except.ok.injEq]
        exact ⟨u, hu, _, rfl, rfl⟩

end WebAuthn
