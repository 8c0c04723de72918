import Verif.Model.RepairedU2F
import Verif.Spec.Separation
import Verif.Props.Attest
import Verif.Props.Ceremony
import Verif.Lemmas.OutcomeParse

/-!
# What was signed for one thing is accepted for no other (C86)
-/

namespace WebAuthn.Props

open WebAuthn WebAuthn.Spec

/-! ## Bytes -/

theorem zero_of_shift {h : Bytes} (hs : (0 :: h).take h.length = h) : h = List.replicate h.length 0 := by
  have key : ∀ i, (hi : i < h.length) → h[i] = 0 := by
    intro i
    induction i with
    | zero =>
      intro hi
      have := List.getElem_of_eq hs.symm hi
      simpa using this
    | succ n ih =>
      intro hi
      have := List.getElem_of_eq hs.symm hi
      rw [this]
      simpa using ih (by omega)
  refine List.ext_getElem (by simp) fun i h1 h2 => ?_
  rw [key i h1]
  simp

/-! ## What is accepted -/

variable {att : Env → AttStmt → AttObjArg → Bytes → Bytes → Py (AttestationType × TrustedPath)}
  {env : Env} {rpId : String}

theorem rpOk_unique {r a : Option RpEntity} {p q : RpEntity} (h : RpOk r a p) (h' : RpOk r a q) : p = q := by
  cases h <;> cases h' <;> rfl

theorem accepted_login {raw cdj : Bytes} (h : Accepted att env rpId (.login raw cdj)) :
    RpHashOk env raw rpId ∧ 32 ≤ raw.length ∧ ∃ d, ClientJson env cdj d ∧
      Lookup d (.str "type") (.str "webauthn.get") := by
  obtain ⟨σ, reg, a, s, s', s1, sig, handle, cd, rp, h1, h2, h3, h4, rfl⟩ := h
  obtain ⟨-, -, cd', s1', user, rp', ad, g1, ⟨cdj', raw', sig', handle', g2, -, g3, g4, g5, -⟩, -⟩ :=
    C17_authentication_accepts_exactly.mp h1
  rw [h3] at g1
  obtain ⟨rfl, -⟩ : cd = cd' ∧ s1 = s1' := by simpa using g1
  rw [h2] at g2
  cases g2
  obtain ⟨c, ⟨d, hd, ht, -⟩, htype, -⟩ := g4
  obtain ⟨g5, g6, -⟩ := g5
  rw [htype] at ht
  refine ⟨?_, ?_, d, hd, ht⟩
  · exact rpOk_unique g3 h4 ▸ g6
  · obtain ⟨-, -, -, -, rfl, hl, -⟩ := g5
    simp [hl]

theorem accepted_registration {a : AttestationArgs} {o : AttestationObject} {raw cdj ob : Bytes}
    (h : AttestationOk env a o raw) (hr : a.credential.response = .attestation cdj ob) :
    RpHashOk env raw a.rp.id ∧ 32 ≤ raw.length ∧ o.authData.rpIdHash = raw.take 32 ∧
      o.authData.rpIdHash.length = 32 ∧ AuthDataOf env raw o.authData ∧
      ∃ d, ClientJson env cdj d ∧ Lookup d (.str "type") (.str "webauthn.create") := by
  obtain ⟨cdj', ob', g1, ⟨c, ⟨d, hd, ht, -⟩, htype, -⟩, -, ⟨g5, g6, -⟩, -⟩ := h
  rw [hr] at g1
  cases g1
  rw [htype] at ht
  have hl : o.authData.rpIdHash.length = 32 := by
    obtain ⟨-, -, -, -, -, hl, -⟩ := g5
    exact hl
  refine ⟨g6, ?_, (authDataOf_head g5).1, hl, g5, d, hd, ht⟩
  have := (authDataOf_head g5).1
  rw [this, List.length_take] at hl
  omega

theorem different_types {cdj : Bytes} (h : ∃ d, ClientJson env cdj d ∧ Lookup d (.str "type") (.str "webauthn.get"))
    (h' : ∃ d, ClientJson env cdj d ∧ Lookup d (.str "type") (.str "webauthn.create")) : False := by
  obtain ⟨d, h1, h2⟩ := h
  obtain ⟨d', h1', h2'⟩ := h'
  obtain rfl := clientJson_unique h1 h1'
  have := lookup_unique h2 h2'
  simp at this

/-- The bytes of a FIDO U2F statement are not those of another signature. -/
theorem u2f_other {raw cdj h cdj' id x y : Bytes} (hr : RpHashOk env raw rpId) (hl : 32 ≤ raw.length)
    (hh : ∃ b, Utf8 b rpId ∧ h = env.sha256 b) (h32 : h.length = 32)
    (he : raw ++ env.sha256 cdj = [0x00] ++ h ++ env.sha256 cdj' ++ id ++ [0x04] ++ x ++ y) :
    ∃ b, Utf8 b rpId ∧ env.sha256 b = List.replicate 32 0 := by
  obtain ⟨b, hb, hs⟩ := hr
  obtain ⟨b', hb', rfl⟩ := hh
  obtain rfl : b = b' := hb.trans hb'.symm
  refine ⟨b, hb, ?_⟩
  have := congrArg (List.take 32) he
  rw [List.take_append_of_le_length hl, hs] at this
  have key : (0 :: env.sha256 b).take (env.sha256 b).length = env.sha256 b := by
    rw [h32]
    simp only [List.append_assoc, List.singleton_append] at this
    rw [List.take_append_of_le_length (by simp [h32])] at this
    exact this.symm
  have := zero_of_shift key
  rwa [h32] at this

theorem u2f_parts {h cdj id x y h' cdj' id' x' y' : Bytes} (hh : h.length = h'.length)
    (hs : (env.sha256 cdj).length = (env.sha256 cdj').length) (hx : x.length = x'.length)
    (hy : y.length = y'.length)
    (he : [0x00] ++ h ++ env.sha256 cdj ++ id ++ [0x04] ++ x ++ y =
      [0x00] ++ h' ++ env.sha256 cdj' ++ id' ++ [0x04] ++ x' ++ y') :
    h = h' ∧ env.sha256 cdj = env.sha256 cdj' ∧ id = id' ∧ x = x' ∧ y = y' := by
  obtain ⟨e1, ey⟩ := List.append_inj' he hy
  obtain ⟨e2, ex⟩ := List.append_inj' e1 hx
  obtain ⟨e3, -⟩ := List.append_inj' e2 rfl
  simp only [List.append_assoc] at e3
  obtain ⟨-, e4⟩ := List.append_inj e3 rfl
  obtain ⟨eh, e5⟩ := List.append_inj e4 hh
  obtain ⟨es, ei⟩ := List.append_inj e5 hs
  exact ⟨eh, es, ei, ex, ey⟩

/-- The coordinates of an attested key have the length of its curve. -/
theorem attested_lengths {raw : Bytes} {ad : AuthData} {acd : AttestedCredentialData} {b : KeyBase}
    {x y : Bytes} {crv : NV Curve} (h : AuthDataOf env raw ad) (ha : ad.attested = some acd)
    (hk : acd.credentialPublicKey = some (.ec2 b x y crv)) : x.length = y.length := by
  obtain ⟨flags, count, body, mid, -, -, -, -, -, hblock, -⟩ := h
  rw [ha] at hblock
  obtain ⟨-, len, tail, d, k, -, -, -, -, -, -, hk', hd, -⟩ := hblock
  rw [hk] at hk'
  cases hk'
  obtain ⟨-, -, -, -, -, -, h1, h2⟩ := hd
  rw [h1, h2]

/-- C86, if the keys of two FIDO U2F statements have coordinates of the same length.  Missing:
keys on different curves (`C86_separate_refuted`). -/
theorem C86_separate_partial (digest : ∀ b, (env.sha256 b).length = 32) {u u' : Signed}
    (h : Accepted att env rpId u) (h' : Accepted att env rpId u')
    (hlen : ∀ h cdj id x y h' cdj' id' x' y', u = .u2f h cdj id x y → u' = .u2f h' cdj' id' x' y' →
      x.length = x'.length)
    (he : u.message env = u'.message env) :
    u = u' ∨ (u.cdj ≠ u'.cdj ∧ env.sha256 u.cdj = env.sha256 u'.cdj) ∨
    ∃ b, Utf8 b rpId ∧ env.sha256 b = List.replicate 32 0 := by
  have raws : ∀ {raw cdj raw' cdj' : Bytes}, raw ++ env.sha256 cdj = raw' ++ env.sha256 cdj' →
      (raw = raw' ∧ cdj = cdj') ∨ (cdj ≠ cdj' ∧ env.sha256 cdj = env.sha256 cdj') := by
    intro raw cdj raw' cdj' he
    obtain ⟨e1, e2⟩ := List.append_inj' he ((digest _).trans (digest _).symm)
    by_cases hc : cdj = cdj'
    · exact Or.inl ⟨e1, hc⟩
    · exact Or.inr ⟨hc, e2⟩
  have u2f : ∀ {h cdj id x y}, Accepted att env rpId (.u2f h cdj id x y) →
      (∃ b, Utf8 b rpId ∧ h = env.sha256 b) ∧ h.length = 32 ∧ x.length = y.length := by
    rintro h cdj id x y ⟨a, ob, o, raw, r, sig, x5c, acd, b, crv, g1, rfl, g2, -, -, rfl, g3, -, g4⟩
    obtain ⟨⟨b, hb, h1⟩, h2, h3, h4, h5, -⟩ := accepted_registration g2 g1
    exact ⟨⟨b, hb, h3.trans h1⟩, h4, attested_lengths h5 g3 g4⟩
  have android : ∀ {raw cdj}, Accepted att env rpId (.androidKey raw cdj) →
      RpHashOk env raw rpId ∧ 32 ≤ raw.length ∧ ∃ d, ClientJson env cdj d ∧
        Lookup d (.str "type") (.str "webauthn.create") := by
    rintro raw cdj ⟨a, ob, o, r, alg, sig, x5c, g1, rfl, g2, -⟩
    obtain ⟨h1, h2, -, -, -, h3⟩ := accepted_registration g2 g1
    exact ⟨h1, h2, h3⟩
  cases u with
  | login raw cdj =>
    obtain ⟨a1, a2, a3⟩ := accepted_login h
    cases u' with
    | login raw' cdj' =>
      rcases raws he with ⟨rfl, rfl⟩ | hc
      · exact Or.inl rfl
      · exact Or.inr (Or.inl hc)
    | androidKey raw' cdj' =>
      rcases raws he with ⟨rfl, rfl⟩ | hc
      · exact (different_types a3 (android h').2.2).elim
      · exact Or.inr (Or.inl hc)
    | u2f hash cdj' id x y =>
      obtain ⟨b1, b2, -⟩ := u2f h'
      exact Or.inr (Or.inr (u2f_other a1 a2 b1 b2 he))
  | androidKey raw cdj =>
    obtain ⟨a1, a2, a3⟩ := android h
    cases u' with
    | login raw' cdj' =>
      rcases raws he with ⟨rfl, rfl⟩ | hc
      · exact (different_types (accepted_login h').2.2 a3).elim
      · exact Or.inr (Or.inl hc)
    | androidKey raw' cdj' =>
      rcases raws he with ⟨rfl, rfl⟩ | hc
      · exact Or.inl rfl
      · exact Or.inr (Or.inl hc)
    | u2f hash cdj' id x y =>
      obtain ⟨b1, b2, -⟩ := u2f h'
      exact Or.inr (Or.inr (u2f_other a1 a2 b1 b2 he))
  | u2f hash cdj id x y =>
    obtain ⟨a1, a2, a3⟩ := u2f h
    cases u' with
    | login raw' cdj' =>
      obtain ⟨b1, b2, -⟩ := accepted_login h'
      exact Or.inr (Or.inr (u2f_other b1 b2 a1 a2 he.symm))
    | androidKey raw' cdj' =>
      obtain ⟨b1, b2, -⟩ := android h'
      exact Or.inr (Or.inr (u2f_other b1 b2 a1 a2 he.symm))
    | u2f hash' cdj' id' x' y' =>
      obtain ⟨b1, b2, b3⟩ := u2f h'
      have hx := hlen _ _ _ _ _ _ _ _ _ _ rfl rfl
      obtain ⟨rfl, hc, rfl, rfl, rfl⟩ := u2f_parts (a2.trans b2.symm) ((digest _).trans (digest _).symm)
        hx (by omega) he
      by_cases hcc : cdj = cdj'
      · exact Or.inl (by rw [hcc])
      · exact Or.inr (Or.inl ⟨hcc, hc⟩)

/-! ## The repaired variant -/

/-- The variant treats all other statements as the code does. -/
theorem C86_repaired_others {stmt : AttStmt} {o : AttObjArg} {raw hash : Bytes}
    (h : ∀ sig x5c, stmt ≠ .fidoU2F sig x5c) :
    Repaired.attest env stmt o raw hash = attest env stmt o raw hash := by
  cases stmt with
  | fidoU2F sig x5c => exact absurd rfl (h sig x5c)
  | _ => rfl

/-- C86: what the repaired variant accepts. -/
theorem C86_repaired_u2f {sig : Bytes} {x5c : List Bytes} {o : AttestationObject} {raw hash : Bytes}
    {r : AttestationType × TrustedPath} :
    Repaired.attest env (.fidoU2F sig x5c) (.attObj o) raw hash = .ok r ↔
      attest env (.fidoU2F sig x5c) (.attObj o) raw hash = .ok r ∧
      ∀ acd b x y crv, o.authData.attested = some acd → acd.credentialPublicKey = some (.ec2 b x y crv) →
        x.length = 32 ∧ y.length = 32 := by
  show Repaired.attestFidoU2F env sig x5c (.attObj o) hash = .ok r ↔
    attestFidoU2F env sig x5c (.attObj o) hash = .ok r ∧ _
  unfold Repaired.attestFidoU2F attestFidoU2F
  constructor
  · intro h
    split at h
    · simp only [bind_ok_iff, catching_ok_iff] at h
      obtain ⟨cert, h1, pk, h2, h⟩ := h
      split at h
      · rename_i c cx cy
        simp only [bind_ok_iff, require_ok_iff, beq_iff_eq, AttObjArg.authData, Except.ok.injEq,
          exists_eq_left', attestedOf_ok_iff] at h
        obtain ⟨_, rfl, acd, h3, h⟩ := h
        split at h
        · cases h
        · rename_i k hk
          simp only [bind_ok_iff, Prod.exists, catching_ok_iff, require_ok_iff, Bool.and_eq_true, beq_iff_eq,
            pure_eq_ok, Except.ok.injEq] at h
          obtain ⟨x, y, hxy, _, hlen, _, hv, rfl⟩ := h
          refine ⟨?_, ?_⟩
          · simp only [bind_ok_iff, catching_ok_iff]
            refine ⟨cert, h1, _, h2, ?_⟩
            simp only [bind_ok_iff, require_ok_iff, beq_iff_eq, AttObjArg.authData, Except.ok.injEq,
              exists_eq_left', attestedOf_ok_iff]
            refine ⟨(), trivial, acd, h3, ?_⟩
            rw [hk]
            simp only [bind_ok_iff, Prod.exists, catching_ok_iff, pure_eq_ok]
            exact ⟨x, y, hxy, (), hv, trivial⟩
          · intro acd' b x' y' crv ha hk'
            rw [h3] at ha
            cases ha
            rw [hk] at hk'
            cases hk'
            cases hxy
            exact hlen
      · cases h
    · cases h
  · rintro ⟨h, hlen⟩
    split at h
    · simp only [bind_ok_iff, catching_ok_iff] at h
      obtain ⟨cert, h1, pk, h2, h⟩ := h
      split at h
      · rename_i c cx cy
        simp only [bind_ok_iff, require_ok_iff, beq_iff_eq, AttObjArg.authData, Except.ok.injEq,
          exists_eq_left', attestedOf_ok_iff] at h
        obtain ⟨_, rfl, acd, h3, h⟩ := h
        split at h
        · cases h
        · rename_i k hk
          simp only [bind_ok_iff, Prod.exists, catching_ok_iff, pure_eq_ok, Except.ok.injEq] at h
          obtain ⟨x, y, hxy, _, hv, rfl⟩ := h
          simp only [bind_ok_iff, catching_ok_iff]
          refine ⟨cert, h1, _, h2, ?_⟩
          simp only [bind_ok_iff, require_ok_iff, beq_iff_eq, AttObjArg.authData, Except.ok.injEq,
            exists_eq_left', attestedOf_ok_iff]
          refine ⟨(), trivial, acd, h3, ?_⟩
          rw [hk]
          simp only [bind_ok_iff, Prod.exists, catching_ok_iff, require_ok_iff, Bool.and_eq_true, beq_iff_eq,
            pure_eq_ok]
          refine ⟨x, y, hxy, (), ?_, (), hv, trivial⟩
          cases k with
          | ec2 b x' y' crv =>
            cases hxy
            exact hlen _ _ _ _ _ h3 hk
          | okp b crv x' => cases hxy
          | base b => cases hxy
      · cases h
    · cases h

/-- C86: where the coordinates have 32 bytes, the repaired variant does what the code does, errors included. -/
theorem C86_repaired_same {stmt : AttStmt} {o : AttestationObject} {raw hash : Bytes}
    (h : ∀ acd b x y crv, o.authData.attested = some acd → acd.credentialPublicKey = some (.ec2 b x y crv) →
      x.length = 32 ∧ y.length = 32) :
    Repaired.attest env stmt (.attObj o) raw hash = attest env stmt (.attObj o) raw hash := by
  cases stmt with
  | fidoU2F sig x5c =>
    show Repaired.attestFidoU2F env sig x5c (.attObj o) hash = attestFidoU2F env sig x5c (.attObj o) hash
    unfold Repaired.attestFidoU2F attestFidoU2F
    rcases x5c with _ | ⟨c, _ | ⟨c', l⟩⟩
    · rfl
    · simp only
      congr 1; funext cert
      congr 1; funext pk
      cases pk with
      | ec curve cx cy =>
        simp only [AttObjArg.authData, ok_bind]
        congr 1; funext _
        cases ha : o.authData.attested with
        | none => simp [attestedOf, ha]
        | some acd =>
          simp only [attestedOf, ha, ok_bind]
          cases hk : acd.credentialPublicKey with
          | none => rfl
          | some k =>
            cases k with
            | ec2 b x y crv =>
              obtain ⟨hx, hy⟩ := h acd b x y crv ha hk
              simp [keyXY, hx, hy, require]
            | okp b crv x => simp [keyXY]
            | base b => simp [keyXY]
      | _ => rfl
    · rfl
  | _ => rfl

/-- C86: the repaired variant raises what the code raises, or `AttestationError`. -/
theorem C86_repaired_raises {stmt : AttStmt} {o : AttestationObject} {raw hash : Bytes} {e : Exc}
    (h : Repaired.attest env stmt (.attObj o) raw hash = .error e) :
    attest env stmt (.attObj o) raw hash = .error e ∨ e = .lib .attestation := by
  by_cases hl : ∀ acd b x y crv, o.authData.attested = some acd → acd.credentialPublicKey = some (.ec2 b x y crv) →
      x.length = 32 ∧ y.length = 32
  · exact Or.inl (C86_repaired_same hl ▸ h)
  · push Not at hl
    obtain ⟨acd, b, x, y, crv, ha, hk, hl⟩ := hl
    cases stmt with
    | fidoU2F sig x5c =>
      have h : Repaired.attestFidoU2F env sig x5c (.attObj o) hash = .error e := h
      show attestFidoU2F env sig x5c (.attObj o) hash = .error e ∨ _
      unfold Repaired.attestFidoU2F at h
      unfold attestFidoU2F
      rcases x5c with _ | ⟨c, _ | ⟨c', l⟩⟩
      · exact Or.inl h
      · simp only at h ⊢
        generalize catching (env.loadCert c) Exc.isValueError .attestation = r at h ⊢
        cases r with
        | error e' => exact Or.inl h
        | ok cert =>
          simp only [ok_bind] at h ⊢
          generalize cert.publicKey = r at h ⊢
          cases r with
          | error e' => exact Or.inl h
          | ok pk =>
            simp only [ok_bind] at h ⊢
            cases pk with
            | ec curve cx cy =>
              simp only [AttObjArg.authData, ok_bind, attestedOf, ha, hk, keyXY] at h ⊢
              cases hc : curve == .SECP256R1 with
              | false =>
                simp only [hc, require] at h ⊢
                exact Or.inl h
              | true =>
                have hb : (x.length == 32 && y.length == 32) = false := by
                  simpa using hl
                simp only [hc, require, hb] at h
                cases h
                exact Or.inr rfl
            | _ => exact Or.inl h
      · exact Or.inl h
    | _ => exact Or.inl h

/-- C86, for the repaired variant. -/
theorem C86_repaired_separate (digest : ∀ b, (env.sha256 b).length = 32) : Separate Repaired.attest env := by
  intro rpId u u' h h' he
  refine C86_separate_partial digest h h' ?_ he
  have key : ∀ {h cdj id x y}, Accepted Repaired.attest env rpId (.u2f h cdj id x y) → x.length = 32 := by
    rintro h cdj id x y ⟨a, ob, o, raw, r, sig, x5c, acd, b, crv, -, -, -, g1, g2, -, g3, -, g4⟩
    rw [g1] at g2
    exact ((C86_repaired_u2f.mp g2).2 _ _ _ _ _ g3 g4).1
  rintro _ _ _ _ _ _ _ _ _ _ rfl rfl
  rw [key h, key h']

end WebAuthn.Props
