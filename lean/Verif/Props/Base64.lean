import Verif.Lemmas.Base64Text

/-!
# Base64 (C38)
-/

namespace WebAuthn.Props

open WebAuthn WebAuthn.Spec WebAuthn.Base64

/-- C38: `url_base64_decode` undoes `url_base64_encode`, also when any part of
the padding at the end is removed. -/
theorem C38_base64url_round_trip (b : Bytes) (text pads : List Char)
    (h : (urlBase64Encode b).toList = text ++ pads) (hp : ∀ c ∈ pads, c = '=') :
    urlBase64Decode (String.ofList text) = .ok b := by
  rw [urlEncode_eq] at h
  have key : ∃ k, text = urlData b ++ List.replicate k '=' := by
    rcases List.append_eq_append_iff.mp h with ⟨m, hm, hr⟩ | ⟨m, hm, hr⟩
    · refine ⟨m.length, ?_⟩
      rw [hm]
      congr 1
      refine List.eq_replicate_iff.mpr ⟨rfl, fun c hc => ?_⟩
      have : c ∈ b2aPads b := by rw [hr]; exact List.mem_append_left _ hc
      unfold b2aPads at this
      split_ifs at this <;> simp at this <;> tauto
    · have : m = [] := by
        cases m with
        | nil => rfl
        | cons c m =>
          have hc : c ∈ urlData b := by rw [hm]; simp
          have hc' : c = '=' := hp c (by rw [hr]; simp)
          exact absurd hc' (urlData_mem hc).2.2
      subst this
      exact ⟨0, by simpa using hm.symm⟩
  obtain ⟨k, rfl⟩ := key
  exact urlDecode_data b k

/-- C38, in the terms of RFC 4648: the encoding is the canonical base64url text of
`b`, with padding, and it is a text that the decoder takes for `b`. -/
theorem C38_base64url_encoding (b : Bytes) :
    Base64UrlText (urlBase64Encode b) b ∧
    ∀ s : String, Encodes64 urlAlphabet s.toList b ↔ s = urlBase64Encode b := by
  refine ⟨?_, fun s => encodes_url_iff⟩
  rw [← urlBase64Decode_ok_iff]
  have := C38_base64url_round_trip b (urlBase64Encode b).toList [] (by simp) (by simp)
  simpa using this

/-- The encoding of the byte 255. -/
example : Encodes64 urlAlphabet "_w==".toList [0xff] :=
  ((C38_base64url_encoding [0xff]).2 "_w==").mpr (by decide)

/-- Two pads, of which one is removed. -/
example : urlBase64Decode "_w=" = .ok [0xff] :=
  C38_base64url_round_trip [0xff] "_w=".toList ['='] (by decide) (by simp)

end WebAuthn.Props
