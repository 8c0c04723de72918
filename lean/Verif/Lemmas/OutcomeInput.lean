import Verif.Lemmas.Credential
import Verif.Lemmas.Outcome
import Verif.Spec.OutcomeInput

/-!
# What is not a credential or a stored key: the parsers and the specification agree
-/

namespace WebAuthn

open WebAuthn.Spec

theorem error_iff_of {α : Type} {m : Py α} {P : α → Prop} {y x : Exc} (h : ∀ a, m = .ok a ↔ P a)
    (hr : Raises m fun e => e = y) : m = .error x ↔ x = y ∧ ∀ a, ¬ P a := by
  constructor
  · intro hx
    refine ⟨hr _ hx, fun a ha => ?_⟩
    rw [← h, hx] at ha
    cases ha
  · rintro ⟨rfl, hn⟩
    cases hm : m with
    | ok a => exact absurd ((h a).mp hm) (hn a)
    | error e => rw [hr _ hm]

theorem fieldStr_error {k : String} {d : Dict} {x : Exc} :
    field PyVal.asStr? (.str k) d = .error x ↔ x = .lib .parser ∧ ∀ t, ¬ Lookup d (.str k) (.str t) :=
  error_iff_of (fun _ => fieldStr) (raises_field rfl)

theorem fieldDict_error {k : String} {d : Dict} {x : Exc} :
    field PyVal.asDict? (.str k) d = .error x ↔
      x = .lib .parser ∧ ∀ t, ¬ Lookup d (.str k) (.dict t) :=
  error_iff_of (fun _ => fieldDict) (raises_field rfl)

theorem checkKeys_error {ks : List String} {d : Dict} {x : Exc} :
    checkUnsupportedKeys ks d = .error x ↔ x = .lib .parser ∧ ¬ OnlyKeys d ks := by
  rw [error_iff_of (fun _ => checkUnsupportedKeys_ok_iff) (raises_checkKeys rfl)]
  exact and_congr_right fun _ => forall_const _

theorem base64_error {s : String} {x : Exc} :
    bytesFromBase64 s = .error x ↔ x = .lib .decoding ∧ ∀ b, ¬ Base64Text s b :=
  error_iff_of (fun _ => bytesFromBase64_ok_iff) (raises_bytesFromBase64 s)

/-- Reading a base64 member, then the rest. -/
theorem member_error {α : Type} {d : Dict} {k : String} {f : Bytes → Py α} {x : Exc} :
    (field PyVal.asStr? (.str k) d >>= fun t => bytesFromBase64 t >>= f) = .error x ↔
      (∃ y, x = .lib y ∧ MemberRefused d k y) ∨ ∃ b, Base64Member d k b ∧ f b = .error x := by
  simp only [bind_error_iff, fieldStr_error, fieldStr, base64_error, bytesFromBase64_ok_iff]
  constructor
  · rintro (⟨rfl, h⟩ | ⟨t, ht, ⟨rfl, h⟩ | ⟨b, hb, h⟩⟩)
    · exact Or.inl ⟨_, rfl, .notText h⟩
    · exact Or.inl ⟨_, rfl, .notBase64 t ht h⟩
    · exact Or.inr ⟨b, ⟨t, ht, hb⟩, h⟩
  · rintro (⟨_, rfl, h | ⟨t, ht, h⟩⟩ | ⟨b, ⟨t, ht, hb⟩, h⟩)
    · exact Or.inl ⟨rfl, h⟩
    · exact Or.inr ⟨t, ht, Or.inl ⟨rfl, h⟩⟩
    · exact Or.inr ⟨t, ht, Or.inr ⟨b, hb, h⟩⟩

theorem fieldOptStr_error {k : String} {d : Dict} {x : Exc} :
    fieldOpt PyVal.asStr? (.str k) d = .error x ↔
      x = .lib .parser ∧ ¬ Missing d (.str k) ∧ ∀ t, ¬ Lookup d (.str k) (.str t) := by
  rw [error_iff_of (fun _ => fieldOptStr) (raises_fieldOpt rfl)]
  refine and_congr_right fun _ => ⟨fun h => ⟨h none, fun t => h (some t)⟩, ?_⟩
  rintro ⟨h1, h2⟩ (_ | t)
  · exact h1
  · exact h2 t

/-- The rest of `parse_public_key_credential`, after the members of the outer
dictionary. -/
theorem response_error_iff {α : Type} {d : Dict} {x : Exc} {f : Bytes → Bytes → α}
    {g : Bytes → Bytes → Bytes → Option String → Py α} (h0 : ∀ a b c, g a b c none ≠ .error x)
    (h1 : ∀ a b c s, g a b c (some s) = .error x ↔ bytesFromBase64 s = .error x) :
    (field PyVal.asStr? (.str "clientDataJSON") d >>= fun t => bytesFromBase64 t >>= fun cdj =>
      if d.has (.str "attestationObject") then
        checkUnsupportedKeys ["clientDataJSON", "attestationObject"] d >>= fun _ =>
        field PyVal.asStr? (.str "attestationObject") d >>= fun t => bytesFromBase64 t >>= fun ob =>
        pure (f cdj ob)
      else
        checkUnsupportedKeys ["clientDataJSON", "authenticatorData", "signature", "userHandle"] d >>=
          fun _ =>
        field PyVal.asStr? (.str "authenticatorData") d >>= fun t => bytesFromBase64 t >>= fun raw =>
        field PyVal.asStr? (.str "signature") d >>= fun t => bytesFromBase64 t >>= fun sig =>
        fieldOpt PyVal.asStr? (.str "userHandle") d >>= fun o => g cdj raw sig o) =
      (.error x : Py α) ↔ ∃ y, x = .lib y ∧ ResponseRefused d y := by
  have hnm : ∀ {t}, Lookup d (.str "userHandle") (.str t) → ¬ Missing d (.str "userHandle") := by
    intro t ht hm
    have h1 := (fieldOptStr (s := some t)).mpr ht
    have h2 := (fieldOptStr (s := none)).mpr hm
    rw [h1] at h2
    cases h2
  rw [member_error]
  constructor
  · rintro (⟨y, rfl, h⟩ | ⟨cdj, hc, h⟩)
    · exact ⟨y, rfl, .clientData y h⟩
    split at h
    · rename_i ha
      have ha := has_iff.mp ha
      rw [bind_error_iff, checkKeys_error] at h
      rcases h with ⟨rfl, h⟩ | ⟨_, hk, h⟩
      · exact ⟨_, rfl, .attestationKeys cdj hc ha h⟩
      rw [checkUnsupportedKeys_ok_iff] at hk
      rw [member_error] at h
      rcases h with ⟨y, rfl, h⟩ | ⟨ob, -, h⟩
      · exact ⟨y, rfl, .attestationObject cdj y hc ha hk h⟩
      · cases h
    · rename_i ha
      have ha := has_false_iff.mp (by simpa using ha)
      rw [bind_error_iff, checkKeys_error] at h
      rcases h with ⟨rfl, h⟩ | ⟨_, hk, h⟩
      · exact ⟨_, rfl, .assertionKeys cdj hc ha h⟩
      rw [checkUnsupportedKeys_ok_iff] at hk
      rw [member_error] at h
      rcases h with ⟨y, rfl, h⟩ | ⟨raw, hr, h⟩
      · exact ⟨y, rfl, .authenticatorData cdj y hc hk h⟩
      rw [member_error] at h
      rcases h with ⟨y, rfl, h⟩ | ⟨sig, hs, h⟩
      · exact ⟨y, rfl, .signature cdj raw y hc hk hr h⟩
      rw [bind_error_iff, fieldOptStr_error] at h
      rcases h with ⟨rfl, hm, h⟩ | ⟨o, ho, h⟩
      · exact ⟨_, rfl, .userHandle cdj raw sig _ hc hk hr hs hm (.notText h)⟩
      rw [fieldOptStr] at ho
      cases o with
      | none => exact absurd h (h0 _ _ _)
      | some t =>
        rw [h1, base64_error] at h
        obtain ⟨rfl, h⟩ := h
        exact ⟨_, rfl, .userHandle cdj raw sig _ hc hk hr hs (hnm ho) (.notBase64 t ho h)⟩
  · rintro ⟨y, rfl, h⟩
    have hab : OnlyKeys d ["clientDataJSON", "authenticatorData", "signature", "userHandle"] →
        d.has (.str "attestationObject") = false :=
      fun h => has_false_iff.mpr (absent_of_onlyKeys h (by simp))
    cases h with
    | clientData _ h => exact Or.inl ⟨y, rfl, h⟩
    | attestationKeys cdj hc ha h =>
      refine Or.inr ⟨cdj, hc, ?_⟩
      rw [if_pos (has_iff.mpr ha), bind_error_iff, checkKeys_error]
      exact Or.inl ⟨rfl, h⟩
    | attestationObject cdj _ hc ha hk h =>
      refine Or.inr ⟨cdj, hc, ?_⟩
      rw [if_pos (has_iff.mpr ha), checkUnsupportedKeys_ok_iff (u := ()) |>.mpr hk, ok_bind,
        member_error]
      exact Or.inl ⟨y, rfl, h⟩
    | assertionKeys cdj hc ha h =>
      refine Or.inr ⟨cdj, hc, ?_⟩
      rw [has_false_iff.mpr ha, if_neg (by simp), bind_error_iff, checkKeys_error]
      exact Or.inl ⟨rfl, h⟩
    | authenticatorData cdj _ hc hk h =>
      refine Or.inr ⟨cdj, hc, ?_⟩
      rw [hab hk, if_neg (by simp), checkUnsupportedKeys_ok_iff (u := ()) |>.mpr hk, ok_bind,
        member_error]
      exact Or.inl ⟨y, rfl, h⟩
    | signature cdj raw _ hc hk hr h =>
      refine Or.inr ⟨cdj, hc, ?_⟩
      rw [hab hk, if_neg (by simp), checkUnsupportedKeys_ok_iff (u := ()) |>.mpr hk, ok_bind,
        member_error]
      refine Or.inr ⟨raw, hr, ?_⟩
      rw [member_error]
      exact Or.inl ⟨y, rfl, h⟩
    | userHandle cdj raw sig _ hc hk hr hs hm h =>
      refine Or.inr ⟨cdj, hc, ?_⟩
      rw [hab hk, if_neg (by simp), checkUnsupportedKeys_ok_iff (u := ()) |>.mpr hk, ok_bind,
        member_error]
      refine Or.inr ⟨raw, hr, ?_⟩
      rw [member_error]
      refine Or.inr ⟨sig, hs, ?_⟩
      cases h with
      | notText h =>
        rw [bind_error_iff, fieldOptStr_error]
        exact Or.inl ⟨rfl, hm, h⟩
      | notBase64 t ht h =>
        rw [(fieldOptStr (s := some t)).mpr ht, ok_bind, h1, base64_error]
        exact ⟨rfl, h⟩

/-- `parse_public_key_credential` refuses exactly what is not a credential. -/
theorem parseCredential_error_iff {d : Dict} {x : Exc} :
    parsePublicKeyCredential d = .error x ↔ ∃ y, x = .lib y ∧ CredentialRefused d y := by
  unfold parsePublicKeyCredential
  constructor
  · intro h
    rw [bind_error_iff, checkKeys_error] at h
    rcases h with ⟨rfl, h⟩ | ⟨_, hk, h⟩
    · exact ⟨_, rfl, .keys h⟩
    rw [checkUnsupportedKeys_ok_iff] at hk
    rw [bind_error_iff, fieldStr_error] at h
    rcases h with ⟨rfl, h⟩ | ⟨id, hid, h⟩
    · exact ⟨_, rfl, .id hk h⟩
    rw [fieldStr] at hid
    rw [bind_error_iff, fieldStr_error] at h
    rcases h with ⟨rfl, h⟩ | ⟨type, htype, h⟩
    · exact ⟨_, rfl, .type id hk hid h⟩
    rw [fieldStr] at htype
    rw [member_error] at h
    rcases h with ⟨y, rfl, h⟩ | ⟨raw, hr, h⟩
    · exact ⟨y, rfl, .rawId id type y hk hid htype h⟩
    rw [bind_error_iff, fieldDict_error] at h
    rcases h with ⟨rfl, h⟩ | ⟨rd, hrd, h⟩
    · exact ⟨_, rfl, .noResponse id type raw hk hid htype hr h⟩
    rw [fieldDict] at hrd
    obtain ⟨y, rfl, h'⟩ := (response_error_iff (fun _ _ _ h => by cases h) fun _ _ _ s => by
      dsimp only
      cases bytesFromBase64 s <;> simp [bind, Except.bind, pure, Except.pure]).mp h
    exact ⟨y, rfl, .response id type raw rd y hk hid htype hr hrd h'⟩
  · rintro ⟨y, rfl, h⟩
    cases h with
    | keys h => rw [bind_error_iff, checkKeys_error]; exact Or.inl ⟨rfl, h⟩
    | id hk h =>
      rw [checkUnsupportedKeys_ok_iff (u := ()) |>.mpr hk, ok_bind, bind_error_iff, fieldStr_error]
      exact Or.inl ⟨rfl, h⟩
    | type id hk hid h =>
      rw [checkUnsupportedKeys_ok_iff (u := ()) |>.mpr hk, ok_bind, fieldStr.mpr hid, ok_bind,
        bind_error_iff, fieldStr_error]
      exact Or.inl ⟨rfl, h⟩
    | rawId id type _ hk hid htype h =>
      rw [checkUnsupportedKeys_ok_iff (u := ()) |>.mpr hk, ok_bind, fieldStr.mpr hid, ok_bind,
        fieldStr.mpr htype, ok_bind, member_error]
      exact Or.inl ⟨y, rfl, h⟩
    | noResponse id type raw hk hid htype hr h =>
      rw [checkUnsupportedKeys_ok_iff (u := ()) |>.mpr hk, ok_bind, fieldStr.mpr hid, ok_bind,
        fieldStr.mpr htype, ok_bind, member_error]
      refine Or.inr ⟨raw, hr, ?_⟩
      rw [bind_error_iff, fieldDict_error]
      exact Or.inl ⟨rfl, h⟩
    | response id type raw rd _ hk hid htype hr hrd h =>
      rw [checkUnsupportedKeys_ok_iff (u := ()) |>.mpr hk, ok_bind, fieldStr.mpr hid, ok_bind,
        fieldStr.mpr htype, ok_bind, member_error]
      refine Or.inr ⟨raw, hr, ?_⟩
      rw [fieldDict.mpr hrd, ok_bind]
      exact (response_error_iff (fun _ _ _ h => by cases h) fun _ _ _ s => by
      dsimp only
      cases bytesFromBase64 s <;> simp [bind, Except.bind, pure, Except.pure]).mpr ⟨y, rfl, h⟩

theorem parseCoseKeyDict_error_iff {d : Dict} {x : Exc} :
    parseCoseKeyDict d = .error x ↔ x = .lib .parser ∧ ∀ k, ¬ CoseKeyOf d k :=
  error_iff_of (fun _ => parseCoseKeyDict_ok_iff) (raises_parseCoseKeyDict d)

theorem parseCoseKeyBytes_error_iff {env : Env} {b : Bytes} {x : Exc} :
    parseCoseKeyBytes env b = .error x ↔ KeyBytesRefused env b x := by
  simp only [parseCoseKeyBytes, bind_error_iff,
    catching_translated (hp1 fun e => isCborDecodeError_iff (e := e)), catching_ok_iff,
    cborLoads_error_iff, cborLoads_ok_iff]
  constructor
  · rintro (⟨e, he, h⟩ | ⟨v, ⟨rest, hv⟩, h⟩)
    · exact .notCbor e x he h
    · cases hd : v.asDict? with
      | none =>
        simp only [hd, raise, Except.error.injEq] at h
        subst h
        refine .notKey v rest hv fun d k hv => ?_
        rw [hv] at hd
        cases hd
      | some d =>
        simp only [hd, parseCoseKeyDict_error_iff] at h
        obtain ⟨rfl, h⟩ := h
        rw [PyVal.asDict?_eq] at hd
        refine .notKey v rest hv fun d' k hv' => ?_
        rw [hd] at hv'
        cases hv'
        exact h k
  · rintro (⟨e, _, he, h⟩ | ⟨v, rest, hv, h⟩)
    · exact Or.inl ⟨e, he, h⟩
    · refine Or.inr ⟨v, ⟨rest, hv⟩, ?_⟩
      cases hd : v.asDict? with
      | none => rfl
      | some d =>
        rw [PyVal.asDict?_eq] at hd
        exact parseCoseKeyDict_error_iff.mpr ⟨rfl, fun k => h d k hd⟩

end WebAuthn
