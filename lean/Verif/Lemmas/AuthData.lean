import Verif.Lemmas.BigEndian
import Verif.Lemmas.Wire
import Mathlib.Data.List.Induction
import Mathlib.Data.Nat.Bitwise

/-!
# Authenticator data and attestation objects: parsers against specification
-/

namespace WebAuthn

open Spec

/-! ## Numbers -/

theorem and_two_pow_ne_zero (n i : Nat) : (n &&& 1 <<< i ≠ 0) ↔ n.testBit i = true := by
  rw [Nat.one_shiftLeft, Nat.and_two_pow]
  cases h : n.testBit i <;> simp

theorem flag_set {n i : Nat} : decide (n &&& 1 <<< i ≠ 0) = n.testBit i := by
  rw [Bool.eq_iff_iff, decide_eq_true_iff, and_two_pow_ne_zero]

/-! ## Reading -/

theorem readBytes_ok_iff {n : Nat} {b r s : Bytes} :
    readBytes n b = .ok (r, s) ↔ b = r ++ s ∧ r.length = n := by
  unfold readBytes
  constructor
  · intro h
    split at h
    · cases h
    · next hl =>
      cases h
      refine ⟨(List.take_append_drop n b).symm, ?_⟩
      rw [List.length_take]; omega
  · rintro ⟨rfl, rfl⟩
    rw [if_neg (by simp)]
    simp

theorem parseAttested_ok_iff {env : Env} {b rest : Bytes} {a : AttestedCredentialData} :
    parseAttested env b = .ok (a, rest) ↔ AttestedOf env b rest a := by
  unfold parseAttested AttestedOf
  simp only [catching_ok_iff, bind_ok_iff, Prod.exists, readBytes_ok_iff]
  constructor
  · rintro ⟨aa, r1, ⟨rfl, h1⟩, len, r2, ⟨rfl, h2⟩, cid, r3, ⟨rfl, h3⟩, v, r4, h4, h5⟩
    cases hd : v.asDict? with
    | none => simp [hd, raise] at h5
    | some d =>
      simp only [hd, bind_ok_iff, parseCoseKeyDict_ok_iff, validate_ok_iff, pure_eq_ok,
        Except.ok.injEq, Prod.mk.injEq] at h5
      rw [PyVal.asDict?_eq] at hd
      subst hd
      obtain ⟨k, hk, _, hv, rfl, rfl⟩ := h5
      refine ⟨len, r3, d, k, by simp, h1, h2, ?_, h3.symm, h4, rfl, hk, hv⟩
      rw [bigEndian_iff, h3]
  · rintro ⟨len, tail, d, k, rfl, h1, h2, h3, h4, h5, h6, h7, h8⟩
    rw [bigEndian_iff] at h3
    refine ⟨a.aaguid, len ++ a.credentialId ++ tail, ⟨by simp, h1⟩, len, a.credentialId ++ tail,
      ⟨by simp, h2⟩, a.credentialId, tail, ⟨rfl, h3⟩, .dict d, rest, h5, ?_⟩
    simp only [PyVal.asDict?, bind_ok_iff, parseCoseKeyDict_ok_iff, validate_ok_iff]
    refine ⟨k, h7, (), h8, ?_⟩
    simp only [pure_eq_ok, Except.ok.injEq, Prod.mk.injEq, and_true]
    rw [← h6, ← h3, ← h4]

theorem parseExtData_ok_iff {env : Env} {b rest : Bytes} {e : Extensions} :
    parseExtData env b = .ok (e, rest) ↔ ExtDataOf env b rest e := by
  unfold parseExtData ExtDataOf
  simp only [catching_ok_iff, bind_ok_iff, Prod.exists]
  constructor
  · rintro ⟨v, r, h1, h2⟩
    cases hd : v.asDict? with
    | none => simp [hd, raise] at h2
    | some d =>
      simp only [hd, bind_ok_iff, parseExtensions_ok_iff, pure_eq_ok,
        Except.ok.injEq, Prod.mk.injEq] at h2
      rw [PyVal.asDict?_eq] at hd
      subst hd
      obtain ⟨e', he, rfl, rfl⟩ := h2
      exact ⟨d, h1, he⟩
  · rintro ⟨d, h1, h2⟩
    refine ⟨.dict d, rest, h1, ?_⟩
    simp only [PyVal.asDict?, bind_ok_iff, parseExtensions_ok_iff]
    exact ⟨e, h2, rfl⟩

theorem block_iff {α : Type} {flags : UInt8} {i : Nat} {R : Bytes → Bytes → α → Prop}
    {f : Bytes → Py (α × Bytes)} (hf : ∀ b rest a, f b = .ok (a, rest) ↔ R b rest a)
    {b rest : Bytes} {o : Option α} :
    optBlock (flags.toNat &&& 1 <<< i != 0) f b = .ok (o, rest) ↔ Block flags i R b rest o := by
  unfold optBlock
  by_cases h : flags.toNat.testBit i = true
  · rw [if_pos (by rw [bne_iff_ne]; exact (and_two_pow_ne_zero _ _).mpr h)]
    simp only [bind_ok_iff, Prod.exists, hf, pure_eq_ok, Except.ok.injEq, Prod.mk.injEq]
    cases o with
    | none => simp [Block, h]
    | some a => simp [Block, h]
  · rw [if_neg (fun h' => h ((and_two_pow_ne_zero _ _).mp (bne_iff_ne.mp h')))]
    rw [Bool.not_eq_true] at h
    simp only [Except.ok.injEq, Prod.mk.injEq]
    cases o with
    | none => simp [Block, h]
    | some a => simp [Block, h]

theorem take_one_eq_nil {b : Bytes} : (b.take 1 == []) = true ↔ b = [] := by
  cases b <;> simp

theorem split37 {raw : Bytes} (h : 37 ≤ raw.length) :
    raw = raw.take 32 ++ [raw.getD 32 0] ++ (raw.drop 33).take 4 ++ raw.drop 37 := by
  have h1 : raw = raw.take 32 ++ raw.drop 32 := (List.take_append_drop 32 raw).symm
  have h2 : raw.drop 32 = raw.getD 32 0 :: raw.drop 33 := by
    rw [List.getD_eq_getElem _ _ (by omega)]
    exact List.drop_eq_getElem_cons (by omega)
  have h3 : raw.drop 33 = (raw.drop 33).take 4 ++ raw.drop 37 := by
    rw [show raw.drop 37 = (raw.drop 33).drop 4 by rw [List.drop_drop]]
    exact (List.take_append_drop 4 _).symm
  conv => lhs; rw [h1, h2, h3]
  simp

/-- `parse_authenticator_data` succeeds exactly on well-formed data. -/
theorem parseAuthenticatorData_ok_iff {env : Env} {raw : Bytes} {ad : AuthData} :
    parseAuthenticatorData env raw = .ok ad ↔ AuthDataOf env raw ad := by
  unfold parseAuthenticatorData AuthDataOf
  simp only [bind_ok_iff, require_ok_iff, Prod.exists, decide_eq_true_eq, flagAT, flagED]
  simp only [block_iff (R := AttestedOf env) (fun _ _ _ => parseAttested_ok_iff)]
  simp only [block_iff (R := ExtDataOf env) (fun _ _ _ => parseExtData_ok_iff)]
  simp only [take_one_eq_nil, pure_eq_ok, Except.ok.injEq]
  constructor
  · rintro ⟨_, hl, o, mid, ho, e, r, he, _, rfl, rfl⟩
    refine ⟨raw.getD 32 0, (raw.drop 33).take 4, raw.drop 37, mid, split37 hl, ?_, rfl, ?_,
      bigEndian_beNat _, ho, he⟩
    · simp; omega
    · simp; omega
  · rintro ⟨flags, count, body, mid, rfl, h1, h2, h3, h4, h5, h6⟩
    obtain ⟨hash, fl, sc, at', ex⟩ := ad
    simp only at h1 h2 h4 h5 h6
    rw [bigEndian_iff] at h4
    have e1 : (hash ++ [flags] ++ count ++ body).take 32 = hash := by
      rw [List.append_assoc, List.append_assoc, ← h1, List.take_left]
    have e2 : (hash ++ [flags] ++ count ++ body).getD 32 0 = flags := by
      rw [List.append_assoc, List.append_assoc, ← h1]
      simp
    have e3 : (hash ++ [flags] ++ count ++ body).drop 37 = body := by
      rw [show 37 = (hash ++ [flags] ++ count).length by simp [h1, h3], List.drop_left]
    have e4 : ((hash ++ [flags] ++ count ++ body).drop 33).take 4 = count := by
      rw [show 33 = (hash ++ [flags]).length by simp [h1], List.append_assoc (hash ++ [flags]),
        List.drop_left, ← h3, List.take_left]
    refine ⟨(), by simp [h1, h3]; omega, at', mid, ?_, ex, [], ?_, (), rfl, ?_⟩
    · rw [e2, e3]; exact h5
    · rw [e2]; exact h6
    · rw [e1, e2, e4, h2, h4]

/-! ## Attestation objects -/

theorem fmtCall_ok_iff {s : String} {f : Fmt} : Fmt.call s = .ok f ↔ s = fmtCode f := by
  unfold Fmt.call
  constructor
  · intro h
    repeat' split at h
    all_goals cases h
    all_goals (subst_vars; rfl)
  · rintro rfl
    cases f <;> simp [fmtCode]

theorem dictIndex_ok_iff {d : Dict} {k : Key} {v : PyVal} :
    dictIndex d k = .ok v ↔ Lookup d k v := by
  rw [lookup_iff, dictIndex]
  cases d.get? k <;> simp

theorem cborLoads_ok_iff {env : Env} {b : Bytes} {v : PyVal} :
    env.cborLoads b = .ok v ↔ ∃ rest, env.cborLoad b = .ok (v, rest) := by
  unfold Env.cborLoads
  cases h : env.cborLoad b with
  | error e => simp
  | ok p => simp [Prod.ext_iff]

/-- `parse_attestation_object` succeeds exactly on attestation objects. -/
theorem parseAttestationObject_ok_iff {env : Env} {b : Bytes} {o : AttestationObject}
    {raw : Bytes} :
    parseAttestationObject env b = .ok (o, raw) ↔ AttObjOf env b o raw := by
  unfold parseAttestationObject AttObjOf
  simp only [bind_ok_iff, catching_ok_iff, cborLoads_ok_iff]
  constructor
  · rintro ⟨v, ⟨rest, hv⟩, h⟩
    cases hd : v.asDict? with
    | none => simp [hd, raise] at h
    | some d =>
      simp only [hd, bind_ok_iff, catching_ok_iff, dictIndex_ok_iff, Prod.exists] at h
      rw [PyVal.asDict?_eq] at hd
      subst hd
      obtain ⟨ad, fmt, asv, raw', ⟨adv, h1, fv, h2, asv', h3, h4⟩, h5⟩ := h
      cases hf : fv.asStr? with
      | none => simp [hf, raise] at h4
      | some fs =>
        rw [hf] at h4
        simp only [bind_ok_iff, catching_ok_iff, fmtCall_ok_iff] at h4
        obtain ⟨fmt', hfmt, h4⟩ := h4
        cases hb : adv.asBytes? with
        | none => simp [hb, raise] at h4
        | some rb =>
          simp only [hb, bind_ok_iff, parseAuthenticatorData_ok_iff, pure_eq_ok, Except.ok.injEq,
            Prod.mk.injEq] at h4
          obtain ⟨ad', had, rfl, rfl, rfl, rfl⟩ := h4
          cases hs : asv'.asDict? with
          | none => simp [hs, raise] at h5
          | some sd =>
            simp only [hs, bind_ok_iff, parseAttStmt_ok_iff, pure_eq_ok, Except.ok.injEq,
              Prod.mk.injEq] at h5
            obtain ⟨st, hst, rfl, rfl⟩ := h5
            rw [PyVal.asDict?_eq] at hs
            rw [PyVal.asBytes?_eq] at hb
            rw [PyVal.asStr?_eq] at hf
            subst hs hb hf hfmt
            exact ⟨d, rest, sd, hv, h1, had, h2, h3, hst⟩
  · rintro ⟨d, rest, sd, hv, h1, had, h2, h3, hst⟩
    refine ⟨.dict d, ⟨rest, hv⟩, ?_⟩
    simp only [PyVal.asDict?, bind_ok_iff, catching_ok_iff, dictIndex_ok_iff, Prod.exists]
    refine ⟨o.authData, o.fmt, .dict sd, raw, ⟨_, h1, _, h2, _, h3, ?_⟩, ?_⟩
    · simp only [PyVal.asStr?, bind_ok_iff, catching_ok_iff, fmtCall_ok_iff]
      refine ⟨o.fmt, rfl, ?_⟩
      simp only [PyVal.asBytes?, bind_ok_iff, parseAuthenticatorData_ok_iff]
      exact ⟨_, had, rfl⟩
    · simp only [bind_ok_iff, parseAttStmt_ok_iff]
      exact ⟨_, hst, rfl⟩

end WebAuthn
