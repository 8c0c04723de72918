import Verif.Spec.Exceptions
import Verif.Lemmas.Py
import Verif.Model.Attesters
import Verif.Model.Backend

/-!
# The handlers against the exception classes
-/

namespace WebAuthn

open WebAuthn.Spec

theorem isWebAuthn_iff {e : Exc} : e.isWebAuthn = true ↔ IsInstance e .WebAuthnRPError := by
  cases e <;> simp [Exc.isWebAuthn, IsInstance, classesOf]

theorem isException_iff {e : Exc} : e.isException = true ↔ IsInstance e .Exception := by
  cases e <;> simp [Exc.isException, IsInstance, classesOf]

theorem isValueError_iff {e : Exc} : e.isValueError = true ↔ IsInstance e .ValueError := by
  cases e <;> simp [Exc.isValueError, IsInstance, classesOf]

theorem isCborDecodeError_iff {e : Exc} :
    e.isCborDecodeError = true ↔ IsInstance e .CBORDecodeError := by
  cases e <;> simp [Exc.isCborDecodeError, IsInstance, classesOf]

theorem isEOFError_iff {e : Exc} : e.isEOFError = true ↔ IsInstance e .EOFError := by
  cases e <;> simp [Exc.isEOFError, IsInstance, classesOf]

theorem isKeyError_iff {e : Exc} : e.isKeyError = true ↔ IsInstance e .KeyError := by
  cases e <;> simp [Exc.isKeyError, IsInstance, classesOf]

theorem isUnicodeOrJson_iff {e : Exc} : e.isUnicodeOrJson = true ↔
    IsInstance e .UnicodeDecodeError ∨ IsInstance e .JSONDecodeError := by
  cases e <;> simp [Exc.isUnicodeOrJson, IsInstance, classesOf]

theorem isInvalidSignature_iff {e : Exc} :
    isInvalidSignature e = true ↔ IsInstance e .InvalidSignature := by
  cases e <;> simp [isInvalidSignature, IsInstance, classesOf]

theorem isExtensionNotFound_iff {e : Exc} :
    isExtensionNotFound e = true ↔ IsInstance e .ExtensionNotFound := by
  cases e <;> simp [isExtensionNotFound, IsInstance, classesOf]

theorem isPyAsn1Error_iff {e : Exc} : isPyAsn1Error e = true ↔ IsInstance e .PyAsn1Error := by
  cases e <;> simp [isPyAsn1Error, IsInstance, classesOf]

theorem translated_iff {p : Exc → Bool} {cs : List ExcClass} {h : LibErr} {e x : Exc}
    (hp : p e = true ↔ ∃ c ∈ cs, IsInstance e c) :
    Translated cs h e x ↔ (p e = true ∧ x = .lib h ∨ p e = false ∧ x = e) := by
  constructor
  · intro ht
    cases ht with
    | caught c h1 h2 => exact Or.inl ⟨hp.mpr ⟨c, h1, h2⟩, rfl⟩
    | passes h1 =>
      refine Or.inr ⟨?_, rfl⟩
      rw [← Bool.not_eq_true, hp]
      rintro ⟨c, h2, h3⟩
      exact h1 c h2 h3
  · rintro (⟨h1, rfl⟩ | ⟨h1, rfl⟩)
    · obtain ⟨c, h2, h3⟩ := hp.mp h1
      exact .caught c h2 h3
    · rw [← Bool.not_eq_true, hp] at h1
      exact .passes fun c h2 h3 => h1 ⟨c, h2, h3⟩

/-- A handler for a list of classes. -/
theorem catching_translated {α : Type} {m : Py α} {p : Exc → Bool} {cs : List ExcClass}
    {h : LibErr} {x : Exc} (hp : ∀ e, p e = true ↔ ∃ c ∈ cs, IsInstance e c) :
    catching m p h = .error x ↔ ∃ e, m = .error e ∧ Translated cs h e x := by
  rw [catching_error_iff]
  simp only [translated_iff (hp _)]

theorem hp1 {c : ExcClass} {p : Exc → Bool} (h : ∀ e, p e = true ↔ IsInstance e c) :
    ∀ e, p e = true ↔ ∃ c' ∈ [c], IsInstance e c' := by
  intro e
  rw [h]
  simp

theorem translated_total (cs : List ExcClass) (h : LibErr) (e : Exc) :
    ∃ x, Translated cs h e x := by
  by_cases hc : ∃ c ∈ cs, IsInstance e c
  · obtain ⟨c, h1, h2⟩ := hc
    exact ⟨_, .caught c h1 h2⟩
  · exact ⟨_, .passes fun c h1 h2 => hc ⟨c, h1, h2⟩⟩

theorem finalise_error_iff {α : Type} {e x : Exc} :
    (finalise (.error e) : Py α) = .error x ↔ Reported e x := by
  have hw : IsInstance e .WebAuthnRPError → IsInstance e .Exception := by
    cases e <;> simp [IsInstance, classesOf]
  simp only [finalise]
  constructor
  · intro h
    split at h
    · next h1 => cases h; exact .library (isWebAuthn_iff.mp h1)
    · next h1 =>
      rw [isWebAuthn_iff] at h1
      split at h
      · next h2 => cases h; exact .internal h1 (isException_iff.mp h2)
      · next h2 => cases h; exact .passes (mt isException_iff.mpr h2)
  · intro h
    cases h with
    | library h => rw [if_pos (isWebAuthn_iff.mpr h)]
    | internal h1 h2 =>
      rw [if_neg (mt isWebAuthn_iff.mp h1), if_pos (isException_iff.mpr h2)]; rfl
    | passes h =>
      rw [if_neg (mt isWebAuthn_iff.mp fun h' => h (hw h')), if_neg (mt isException_iff.mp h)]

theorem finalise_ne_ok {α : Type} {e : Exc} {a : α} : (finalise (.error e) : Py α) ≠ .ok a := by
  simp only [finalise, raise]
  split
  · simp
  · split <;> simp

end WebAuthn
