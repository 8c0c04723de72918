import Verif.Spec.Revoke
import Verif.Props.Restore
import Verif.Props.Guards
import Verif.Props.Isolation

/-!
# Credentials are revoked (C107)
-/

namespace WebAuthn.Flask

open WebAuthn WebAuthn.Spec WebAuthn.Props

/-! ## One request, and a row less -/

theorem any_revoke {l : List CredentialRow} {id i : Bytes} (h : i ≠ id) :
    ((l.filter fun c => c.id != id).any fun c => c.id == i) = l.any fun c => c.id == i := by
  rw [List.any_filter]
  congr 1
  funext c
  by_cases hc : c.id = i
  · simp [hc, h]
  · simp [hc]

theorem find_revoke {l : List CredentialRow} {id i : Bytes} (h : i ≠ id) :
    ((l.filter fun c => c.id != id).find? fun c => c.id == i) = l.find? fun c => c.id == i := by
  rw [List.find?_filter]
  congr 1
  funext c
  by_cases hc : c.id = i
  · simp [hc, h]
  · simp [hc]

theorem findOrAddUser_revoke (db : Db) (id : Bytes) (name : String) (hd : Bytes) : findOrAddUser (db.revoke id) name hd =
    ((findOrAddUser db name hd).1, (findOrAddUser db name hd).2.revoke id) := by
  unfold findOrAddUser
  have h : (db.revoke id).userNamed name = db.userNamed name := rfl
  rw [h]
  cases db.userNamed name with
  | some u => rfl
  | none =>
    unfold Db.addUser
    by_cases h : (db.users.any fun u => u.username == name || u.handle == hd) = true
    · rw [if_pos h, if_pos (show ((db.revoke id).users.any _) = true from h)]
    · rw [if_neg h, if_neg (show ¬ ((db.revoke id).users.any _) = true from h)]
      rfl

theorem addChallenge_revoke (db : Db) (id : Bytes) (ch : Bytes) (t : Int) (u : Nat) :
    (db.revoke id).addChallenge ch t u = ((db.addChallenge ch t u).1, (db.addChallenge ch t u).2.revoke id) := by
  unfold Db.addChallenge
  by_cases h : (db.challenges.any fun c => c.request == ch) = true
  · rw [if_pos h, if_pos (show ((db.revoke id).challenges.any _) = true from h)]
  · rw [if_neg h, if_neg (show ¬ ((db.revoke id).challenges.any _) = true from h)]
    rfl

theorem registerAttestation_revoke {env : Env} {r : AttestationRecord} {id : Bytes} (h : r.credential.rawId ≠ id)
    (db : Db) : registerAttestation env r (db.revoke id) =
      ((registerAttestation env r db).1, (registerAttestation env r db).2.revoke id) := by
  simp only [registerAttestation, Db.userOfHandle, Db.revoke, any_revoke h]
  repeat' split
  all_goals first | rfl | simp_all

theorem registerAttestation_revoked {env : Env} {r : AttestationRecord} (db : Db) :
    (registerAttestation env r db).2.revoke r.credential.rawId = db.revoke r.credential.rawId := by
  simp only [registerAttestation, Db.revoke]
  repeat' split
  all_goals first | rfl | simp

theorem setCount_revoke (l : List CredentialRow) (id i : Bytes) (n : Int) :
    (l.map (setCount i n)).filter (fun c => c.id != id) = (l.filter fun c => c.id != id).map (setCount i n) := by
  rw [List.filter_map]
  congr 1
  refine List.filter_congr fun c _ => ?_
  simp only [Function.comp, (setCount_keeps i n c).1]

theorem setCount_revoked (l : List CredentialRow) (id : Bytes) (n : Int) :
    (l.map (setCount id n)).filter (fun c => c.id != id) = l.filter fun c => c.id != id := by
  rw [setCount_revoke]
  refine (List.map_congr_left fun c hc => ?_).trans (List.map_id _)
  have := (List.mem_filter.mp hc).2
  simp only [bne_iff_ne, ne_eq] at this
  simp [setCount, this]

theorem registerAssertion_revoke {r : AssertionRecord} {id : Bytes} (h : r.credential.rawId ≠ id) (db : Db) :
    registerAssertion r (db.revoke id) = ((registerAssertion r db).1, (registerAssertion r db).2.revoke id) := by
  simp only [registerAssertion, Db.credential, Db.revoke, find_revoke h]
  split
  · rfl
  · simp only [setCount_revoke]

theorem registerAssertion_revoked {r : AssertionRecord} (db : Db) :
    (registerAssertion r db).2.revoke r.credential.rawId = db.revoke r.credential.rawId := by
  simp only [registerAssertion, Db.revoke]
  split
  · rfl
  · simp only [setCount_revoked]

theorem credentialData_revoke {env : Env} {id i : Bytes} (h : i ≠ id) (db : Db) :
    credentialData env i (db.revoke id) = credentialData env i db := by
  simp only [credentialData, Db.credential, Db.revoke, Db.userOfId, find_revoke h]

theorem attestationChecks_credential {env : Env} {a : AttestationArgs} {r : AttestationRecord}
    (h : attestationChecks env a = .ok r) : r.credential = a.credential := by
  obtain ⟨-, -, -, h, -⟩ := attestationChecks_ok_iff.mp h
  exact h

theorem handleAttestation_revoke {env : Env} {a : AttestationArgs} {id : Bytes} (h : a.credential.rawId ≠ id)
    (db : Db) : handleAttestation env (registrar env) a (db.revoke id) =
      ((handleAttestation env (registrar env) a db).1, (handleAttestation env (registrar env) a db).2.revoke id) := by
  unfold handleAttestation
  split
  · rfl
  · rename_i r hr
    have h' : r.credential.rawId ≠ id := by rw [attestationChecks_credential hr]; exact h
    simp only [registrar, registerAttestation_revoke h']

theorem handleAttestation_revoked {env : Env} {a : AttestationArgs} (db : Db) :
    (handleAttestation env (registrar env) a db).2.revoke a.credential.rawId = db.revoke a.credential.rawId := by
  unfold handleAttestation
  split
  · rfl
  · rename_i r hr
    rw [← attestationChecks_credential hr]
    exact registerAttestation_revoked db

theorem assertionChecks_credential {env : Env} {a : AssertionArgs} {al : List Origin} {cd : CredentialData}
    {r : AssertionRecord} (ha : assertionPre env a = .ok al)
    (h : assertionChecks env a al cd = .ok r) : r.credential = a.credential :=
  ((assertionChecks_ok_iff (assertionPre_ok_iff.mp ha).1).mp h).1

theorem handleAssertion_revoke {env : Env} {a : AssertionArgs} {id : Bytes} (h : a.credential.rawId ≠ id)
    (db : Db) : handleAssertion env (registrar env) a (db.revoke id) =
      ((handleAssertion env (registrar env) a db).1, (handleAssertion env (registrar env) a db).2.revoke id) := by
  unfold handleAssertion
  split
  · rfl
  · rename_i al ha
    simp only [registrar, credentialData_revoke h]
    split
    · rfl
    · split
      · rfl
      · rename_i r hr
        have h' : r.credential.rawId ≠ id := by rw [assertionChecks_credential ha hr]; exact h
        simp only [registerAssertion_revoke h']

theorem handleAssertion_revoked {env : Env} {a : AssertionArgs} (db : Db) :
    (handleAssertion env (registrar env) a db).2.revoke a.credential.rawId = db.revoke a.credential.rawId := by
  unfold handleAssertion
  split
  · rfl
  · rename_i al ha
    simp only [registrar]
    split
    · rfl
    · split
      · rfl
      · rename_i r hr
        rw [← assertionChecks_credential ha hr]
        exact registerAssertion_revoked db

theorem concerns_iff {app : App} {e : Event} {id : Bytes} : Concerns app e id ↔ credentialIn app e = some id := by
  constructor
  · rintro ⟨f, t, n, c, name, rfl | rfl, hf, rfl⟩ <;> simp [credentialIn, formIn, submission_iff.mpr hf]
  · intro h
    cases e with
    | registrationRequest _ _ _ _ => simp [credentialIn, formIn] at h
    | authenticationRequest _ _ _ => simp [credentialIn, formIn] at h
    | registrationResponse f t =>
      simp only [credentialIn, formIn, Option.bind_some, Option.map_eq_some_iff] at h
      obtain ⟨⟨n, c, name⟩, h1, h2⟩ := h
      exact ⟨f, t, n, c, name, Or.inl rfl, submission_iff.mp h1, h2⟩
    | authenticationResponse f t =>
      simp only [credentialIn, formIn, Option.bind_some, Option.map_eq_some_iff] at h
      obtain ⟨⟨n, c, name⟩, h1, h2⟩ := h
      exact ⟨f, t, n, c, name, Or.inr rfl, submission_iff.mp h1, h2⟩

section
variable {app : App}

theorem readResponse_revoke (att : Bool) (f : Form) (now : Int) (db : Db) (id : Bytes) :
    readResponse app att f now (db.revoke id) = readResponse app att f now db := rfl

/-- The response that is read is the one that is submitted. -/
theorem read_submits {att : Bool} {f : Form} {now : Int} {db : Db} {c : Credential} {ch : Challenge} {u : User}
    (h : readResponse app att f now db = .ok (c, ch, u)) : ∃ n name, Submits app f n c name := by
  obtain ⟨n, name, h, -⟩ := readResponse_ok_iff.mp h
  exact ⟨n, name, h⟩

/-- C107: what does not concern a credential is answered and done as if it were not there, … -/
theorem step_revoke {e : Event} {id : Bytes} (h : ¬ Concerns app e id) (db : Db) :
    (step app e (db.revoke id)).2 = (step app e db).2.revoke id ∧
      ((∀ name ch t, e ≠ .authenticationRequest name ch t) → (step app e (db.revoke id)).1 = (step app e db).1) := by
  cases e with
  | registrationRequest name hd ch t =>
    simp only [step, registrationRequest]
    cases name with
    | none => exact ⟨rfl, fun _ => rfl⟩
    | some name =>
      simp only [findOrAddUser_revoke]
      rcases findOrAddUser db name hd with ⟨_ | u, db'⟩
      · exact ⟨rfl, fun _ => rfl⟩
      · simp only [addChallenge_revoke]
        rcases db'.addChallenge ch t u.id with ⟨_ | m, db'⟩ <;> exact ⟨rfl, fun _ => rfl⟩
  | authenticationRequest name ch t =>
    refine ⟨?_, fun h => absurd rfl (h name ch t)⟩
    simp only [step, authenticationRequest]
    cases name with
    | none => rfl
    | some name =>
      have h : (db.revoke id).userNamed name = db.userNamed name := rfl
      simp only [h]
      cases db.userNamed name with
      | none => rfl
      | some u =>
        simp only [addChallenge_revoke]
        rcases db.addChallenge ch t u.id with ⟨_ | m, db'⟩ <;> rfl
  | registrationResponse f t =>
    simp only [step, registrationResponse, readResponse_revoke]
    split
    · exact ⟨rfl, fun _ => rfl⟩
    · rename_i c ch u hr
      obtain ⟨n, name, hf⟩ := read_submits hr
      have hne : (attestationArgs c ch u).credential.rawId ≠ id :=
        fun he => h ⟨f, t, n, c, name, Or.inl rfl, hf, he⟩
      simp only [handleAttestation_revoke hne]
      exact ⟨trivial, fun _ => trivial⟩
  | authenticationResponse f t =>
    simp only [step, authenticationResponse, readResponse_revoke]
    split
    · exact ⟨rfl, fun _ => rfl⟩
    · rename_i c ch u hr
      obtain ⟨n, name, hf⟩ := read_submits hr
      have hne : (assertionArgs c ch u).credential.rawId ≠ id :=
        fun he => h ⟨f, t, n, c, name, Or.inr rfl, hf, he⟩
      simp only [handleAssertion_revoke hne]
      exact ⟨trivial, fun _ => trivial⟩

/-- … and what concerns it leaves no trace once it is revoked. -/
theorem step_revoked {e : Event} {id : Bytes} (h : Concerns app e id) (db : Db) :
    (step app e db).2.revoke id = db.revoke id := by
  obtain ⟨f, t, n, c, name, rfl | rfl, hf, rfl⟩ := h
  · simp only [step, registrationResponse]
    split
    · rfl
    · rename_i c' ch u hr
      obtain ⟨n', name', hf'⟩ := read_submits hr
      obtain ⟨-, rfl, -⟩ := submits_unique hf hf'
      exact handleAttestation_revoked (a := attestationArgs c ch u) db
  · simp only [step, authenticationResponse]
    split
    · rfl
    · rename_i c' ch u hr
      obtain ⟨n', name', hf'⟩ := read_submits hr
      obtain ⟨-, rfl, -⟩ := submits_unique hf hf'
      exact handleAssertion_revoked (a := assertionArgs c ch u) db

/-! ## Histories -/

/-- The history without what concerns the credential. -/
def without (app : App) (id : Bytes) (evs : List Event) : List Event :=
  evs.filter fun e => credentialIn app e != some id

theorem run_without (app : App) (id : Bytes) (evs : List Event) :
    run app (without app id evs) = (run app evs).revoke id := by
  induction evs using List.reverseRecOn with
  | nil => rfl
  | append_singleton evs e ih =>
    rw [without, List.filter_append, run_snoc]
    by_cases h : Concerns app e id
    · have h' := concerns_iff.mp h
      rw [step_revoked h, ← ih]
      simp [h', without]
    · have h' : credentialIn app e ≠ some id := fun he => h (concerns_iff.mpr he)
      rw [← (step_revoke h _).1, ← ih, ← run_snoc]
      simp [h', without]

/-- What is issued does not depend on the credentials. -/
theorem issues_revoke {e : Event} {id : Bytes} {n : Nat} {ch : Bytes} {t : Int} {name : String} {db : Db} :
    IssuesBy (fun _ e => (step app e (db.revoke id)).1) [] e n ch t name ↔
      IssuesBy (fun _ e => (step app e db).1) [] e n ch t name := by
  refine and_congr_left fun he => ?_
  rcases he with ⟨hd, rfl⟩ | rfl
  · have : ¬ Concerns app (.registrationRequest (some name) hd ch t) id := by
      rintro ⟨_, _, _, _, _, h | h, -⟩ <;> cases h
    dsimp only
    rw [(step_revoke this db).2 (by rintro _ _ _ ⟨⟩)]
  · dsimp only [step, authenticationRequest]
    have h : (db.revoke id).userNamed name = db.userNamed name := rfl
    simp only [h]
    cases db.userNamed name with
    | none => rfl
    | some u =>
      simp only [addChallenge_revoke]
      rcases db.addChallenge ch t u.id with ⟨_ | m, db'⟩
      · rfl
      · obtain ⟨v, h1, -⟩ := request_reply m (db.credentials.filter fun c => c.userId == u.id) ch
        obtain ⟨v', h2, -⟩ := request_reply m ((db.revoke id).credentials.filter fun c => c.userId == u.id) ch
        dsimp only
        rw [h1, h2]
        constructor
        · rintro ⟨key, w, hw⟩
          cases hw
          exact ⟨_, _, rfl⟩
        · rintro ⟨key, w, hw⟩
          cases hw
          exact ⟨_, _, rfl⟩

def Db.revokeAll (db : Db) (ids : List Bytes) : Db := ids.foldl Db.revoke db

theorem step_revokeAll {e : Event} {ids : List Bytes} (h : ∀ id ∈ ids, ¬ Concerns app e id)
    (hn : ∀ name ch t, e ≠ .authenticationRequest name ch t) (db : Db) :
    (step app e (db.revokeAll ids)).1 = (step app e db).1 := by
  induction ids generalizing db with
  | nil => rfl
  | cons id ids ih =>
    have := ih (fun i hi => h i (List.mem_cons_of_mem _ hi)) (db.revoke id)
    rw [(step_revoke (h id (List.mem_cons_self ..)) db).2 hn] at this
    exact this

theorem issues_revokeAll {e : Event} (ids : List Bytes) {n : Nat} {ch : Bytes} {t : Int} {name : String} {db : Db} :
    IssuesBy (fun _ e => (step app e (db.revokeAll ids)).1) [] e n ch t name ↔
      IssuesBy (fun _ e => (step app e db).1) [] e n ch t name := by
  induction ids generalizing db with
  | nil => rfl
  | cons id ids ih => exact (ih (db := db.revoke id)).trans issues_revoke

theorem revokedRun_request (ops : List Op) (e : Event) :
    revokedRun app (ops ++ [.request e]) = (step app e (revokedRun app ops)).2 := by
  simp [revokedRun, revokedStep]

theorem revokedRun_revoke (ops : List Op) (id : Bytes) :
    revokedRun app (ops ++ [.revoke id]) = (revokedRun app ops).revoke id := by
  simp [revokedRun, revokedStep]

end

/-- The requests of which something remains, with their numbers. -/
def remaining (app : App) (ops : List Op) : List (Nat × Event) :=
  (ops.foldl (fun s => fun
    | .request e => (s.1 + 1, s.2 ++ [(s.1, e)])
    | .revoke id => (s.1 + 1, s.2.filter fun x => credentialIn app x.2 != some id)) (0, [])).2

section
variable {app : App} {ops : List Op}

theorem remaining_fst (app : App) (ops : List Op) : (ops.foldl (fun (s : Nat × List (Nat × Event)) => fun
    | .request e => (s.1 + 1, s.2 ++ [(s.1, e)])
    | .revoke id => (s.1 + 1, s.2.filter fun x => credentialIn app x.2 != some id)) (0, [])).1 = ops.length := by
  induction ops using List.reverseRecOn with
  | nil => rfl
  | append_singleton l a ih =>
    rw [List.foldl_append]
    cases a <;> simp [ih]

theorem remaining_request (ops : List Op) (e : Event) :
    remaining app (ops ++ [.request e]) = remaining app ops ++ [(ops.length, e)] := by
  have := remaining_fst app ops
  simp only [remaining, List.foldl_append, List.foldl_cons, List.foldl_nil]
  rw [this]

theorem remaining_revoke (ops : List Op) (id : Bytes) : remaining app (ops ++ [.revoke id]) =
    (remaining app ops).filter fun x => credentialIn app x.2 != some id := by
  simp only [remaining, List.foldl_append, List.foldl_cons, List.foldl_nil]

theorem revokedRun_remaining (app : App) (ops : List Op) :
    revokedRun app ops = run app ((remaining app ops).map Prod.snd) := by
  induction ops using List.reverseRecOn with
  | nil => rfl
  | append_singleton l a ih =>
    cases a with
    | request e => rw [revokedRun_request, remaining_request, List.map_append, List.map_singleton, run_snoc, ih]
    | revoke id =>
      rw [revokedRun_revoke, remaining_revoke, ih, ← run_without, without, List.filter_map]
      rfl

theorem revokedReply_remaining (app : App) (ops : List Op) (e : Event) :
    revokedReply app ops e = reply app ((remaining app ops).map Prod.snd) e := by
  rw [revokedReply, revokedRun_remaining]
  rfl

/-- What was there when the request came is what remains of it, and what was revoked since and does
not matter to it. -/
theorem remaining_split {pre post : List (Nat × Event)} {i : Nat} {e : Event}
    (h : remaining app ops = pre ++ (i, e) :: post) :
    AskedAt ops i e ∧ (∀ id, Concerns app e id → ¬ RevokedAfter ops i id) ∧
      ∃ ids, (∀ id ∈ ids, ¬ Concerns app e id) ∧
        run app (pre.map Prod.snd) = (revokedRun app (ops.take i)).revokeAll ids := by
  induction ops using List.reverseRecOn generalizing pre post with
  | nil =>
    rw [show remaining app [] = [] from rfl] at h
    simp at h
  | append_singleton ops a ih =>
    cases a with
    | request a =>
      rw [remaining_request] at h
      rcases List.eq_nil_or_concat post with rfl | ⟨post, x, rfl⟩
      · obtain ⟨h1, h2⟩ := List.append_inj' h rfl
        simp only [List.cons.injEq, Prod.mk.injEq, and_true] at h2
        obtain ⟨rfl, rfl⟩ := h2
        refine ⟨by simp [AskedAt], ?_, [], by simp, ?_⟩
        · rintro id - ⟨j, hj, h⟩
          have := (List.getElem?_eq_some_iff.mp h).1
          simp only [List.length_append, List.length_singleton] at this
          omega
        · rw [← h1, ← revokedRun_remaining, List.take_append_of_le_length le_rfl, List.take_length]
          rfl
      · rw [List.concat_eq_append, ← List.cons_append, ← List.append_assoc] at h
        obtain ⟨h1, -⟩ := List.append_inj' h rfl
        obtain ⟨h2, h3, h4⟩ := ih h1
        have hi : i < ops.length := (List.getElem?_eq_some_iff.mp h2).1
        refine ⟨?_, ?_, ?_⟩
        · rw [AskedAt, List.getElem?_append_left hi]
          exact h2
        · rintro id hid ⟨j, hj, h⟩
          refine h3 id hid ⟨j, hj, ?_⟩
          rcases Nat.lt_or_ge j ops.length with hl | hl
          · rwa [List.getElem?_append_left hl] at h
          · have := (List.getElem?_eq_some_iff.mp h).1
            simp only [List.length_append, List.length_singleton] at this
            obtain rfl : j = ops.length := by omega
            simp at h
        · rw [List.take_append_of_le_length hi.le]
          exact h4
    | revoke id =>
      rw [remaining_revoke] at h
      obtain ⟨l1, l2, h1, h2, h3⟩ := List.filter_eq_append_iff.mp h
      obtain ⟨l3, l4, rfl, h4, h5, h6⟩ := List.filter_eq_cons_iff.mp h3
      have hne : ¬ Concerns app e id := fun hc => by simp [concerns_iff.mp hc] at h5
      rw [← List.append_assoc] at h1
      obtain ⟨g1, g2, ids, g3, g4⟩ := ih h1
      have hi : i < ops.length := (List.getElem?_eq_some_iff.mp g1).1
      refine ⟨?_, ?_, ids ++ [id], ?_, ?_⟩
      · rw [AskedAt, List.getElem?_append_left hi]
        exact g1
      · rintro id' hid ⟨j, hj, h⟩
        rcases Nat.lt_or_ge j ops.length with hl | hl
        · rw [List.getElem?_append_left hl] at h
          exact g2 id' hid ⟨j, hj, h⟩
        · have := (List.getElem?_eq_some_iff.mp h).1
          simp only [List.length_append, List.length_singleton] at this
          obtain rfl : j = ops.length := by omega
          simp only [List.getElem?_concat_length, Option.some.injEq, Op.revoke.injEq] at h
          exact hne (h ▸ hid)
      · intro id' hid
        rcases List.mem_append.mp hid with hid | hid
        · exact g3 id' hid
        · rw [List.mem_singleton.mp hid]
          exact hne
      · rw [List.take_append_of_le_length hi.le, Db.revokeAll, List.foldl_append]
        change _ = (Db.revokeAll _ ids).revoke id
        rw [← g4, ← run_without, without, List.map_append, List.filter_append, List.filter_map, List.filter_map]
        have e1 : l3.filter (fun x => credentialIn app x.2 != some id) = [] := by
          rw [List.filter_eq_nil_iff]
          exact h4
        rw [show List.filter ((fun e => credentialIn app e != some id) ∘ Prod.snd) l1 = pre from h2,
          show List.filter ((fun e => credentialIn app e != some id) ∘ Prod.snd) l3 = [] from e1]
        simp

theorem remaining_sorted (app : App) (ops : List Op) : (remaining app ops).Pairwise fun x y => x.1 < y.1 := by
  induction ops using List.reverseRecOn with
  | nil => exact List.Pairwise.nil
  | append_singleton ops a ih =>
    cases a with
    | request a =>
      rw [remaining_request, List.pairwise_append]
      refine ⟨ih, List.pairwise_singleton _ _, ?_⟩
      rintro ⟨i, e⟩ hx y hy
      obtain rfl := List.mem_singleton.mp hy
      obtain ⟨pre, post, hs⟩ := List.append_of_mem hx
      exact (List.getElem?_eq_some_iff.mp (remaining_split hs).1).1
    | revoke id =>
      rw [remaining_revoke]
      exact ih.sublist List.filter_sublist

theorem remaining_mem {i : Nat} {e : Event} : (i, e) ∈ remaining app ops ↔
    AskedAt ops i e ∧ ∀ id, Concerns app e id → ¬ RevokedAfter ops i id := by
  constructor
  · intro h
    obtain ⟨pre, post, hs⟩ := List.append_of_mem h
    exact ⟨(remaining_split hs).1, (remaining_split hs).2.1⟩
  · rintro ⟨h1, h2⟩
    induction ops using List.reverseRecOn with
    | nil => cases h1
    | append_singleton ops a ih =>
      rcases Nat.lt_or_ge i ops.length with hl | hl
      · have hm : (i, e) ∈ remaining app ops := by
          refine ih ?_ ?_
          · rwa [AskedAt, List.getElem?_append_left hl] at h1
          · rintro id hid ⟨j, hj, h⟩
            exact h2 id hid ⟨j, hj, by
              rw [List.getElem?_append_left (List.getElem?_eq_some_iff.mp h).1, h]⟩
        cases a with
        | request a =>
          rw [remaining_request]
          exact List.mem_append_left _ hm
        | revoke id =>
          rw [remaining_revoke, List.mem_filter]
          refine ⟨hm, ?_⟩
          rw [bne_iff_ne]
          intro hc
          exact h2 id (concerns_iff.mpr hc) ⟨ops.length, hl, by simp⟩
      · have := (List.getElem?_eq_some_iff.mp h1).1
        simp only [List.length_append, List.length_singleton] at this
        obtain rfl : i = ops.length := by omega
        simp only [AskedAt, List.getElem?_concat_length, Option.some.injEq] at h1
        subst h1
        rw [remaining_request]
        simp

/-- C107: the application answers as if the responses with a credential that has been revoked since
had never been sent. -/
theorem C107_as_if (app : App) (ops : List Op) :
    ∃ l : List (Nat × Event), (l.Pairwise fun x y => x.1 < y.1) ∧
      (∀ i e, (i, e) ∈ l ↔ AskedAt ops i e ∧ ∀ id, Concerns app e id → ¬ RevokedAfter ops i id) ∧
      ∀ e, revokedReply app ops e = reply app (l.map Prod.snd) e :=
  ⟨remaining app ops, remaining_sorted app ops, fun _ _ => remaining_mem, revokedReply_remaining app ops⟩

/-- C107: revoking a credential changes no reply to a request that does not concern it, but for the
credentials that are offered. -/
theorem C107_others {e : Event} {id : Bytes} (h : ¬ Concerns app e id)
    (hn : ∀ name ch t, e ≠ .authenticationRequest name ch t) :
    revokedReply app (ops ++ [.revoke id]) e = revokedReply app ops e := by
  rw [revokedReply, revokedRun_revoke]
  exact (step_revoke h _).2 hn

/-! ## What remained when it came -/

theorem occurs_remaining {pre : List Event} {e : Event} (h : Occurs ((remaining app ops).map Prod.snd) pre e) :
    ∃ i ids, AskedAt ops i e ∧ (∀ id, Concerns app e id → ¬ RevokedAfter ops i id) ∧
      (∀ id ∈ ids, ¬ Concerns app e id) ∧ run app pre = (revokedRun app (ops.take i)).revokeAll ids := by
  obtain ⟨post, h⟩ := h
  obtain ⟨l1, l2, h1, rfl, h2⟩ := List.map_eq_append_iff.mp h
  obtain ⟨⟨i, e'⟩, l3, rfl, rfl, rfl⟩ := List.map_eq_cons_iff.mp h2
  obtain ⟨g1, g2, ids, g3, g4⟩ := remaining_split h1
  exact ⟨i, ids, g1, g2, g3, g4⟩

theorem remaining_occurs {i : Nat} {e : Event} (h1 : AskedAt ops i e)
    (h2 : ∀ id, Concerns app e id → ¬ RevokedAfter ops i id) :
    ∃ pre ids, Occurs ((remaining app ops).map Prod.snd) pre e ∧ (∀ id ∈ ids, ¬ Concerns app e id) ∧
      run app pre = (revokedRun app (ops.take i)).revokeAll ids := by
  obtain ⟨pre, post, hs⟩ := List.append_of_mem (remaining_mem.mpr ⟨h1, h2⟩)
  obtain ⟨-, -, ids, g3, g4⟩ := remaining_split hs
  exact ⟨pre.map Prod.snd, ids, ⟨post.map Prod.snd, by rw [hs]; simp⟩, g3, g4⟩

/-- C107: a login is with a credential that was registered by the user and not revoked since, and signed
with its key (C49). -/
theorem C107_registered (app : App) (codec : CodecLaws app.env) : RevocationHolds (revokedReply app) app := by
  intro ops f now n c name h hf
  rw [revokedReply_remaining] at h
  obtain ⟨n', c', name', pre, e, k, cdj, raw, sig, hd, h1, h2, h3, h4, h5⟩ := C49_login codec h
  obtain ⟨rfl, rfl, rfl⟩ := submits_unique hf h1
  obtain ⟨i, ids, g1, g2, g3, g4⟩ := occurs_remaining h2
  obtain ⟨f', t', n', c', cdj', ob, o, raw', acd, rfl, a1, a2, a3, a4⟩ := h3
  refine ⟨i, k, cdj, raw, sig, hd, ⟨_, g1, f', t', n', c', cdj', ob, o, raw', acd, rfl, ?_, a2, a3, a4⟩,
    g2 _ ⟨f', t', n', c', name, Or.inl rfl, a2, a3⟩, h4, h5⟩
  dsimp only [revokedReply]
  rw [← step_revokeAll g3 (by rintro _ _ _ ⟨⟩), ← g4]
  exact a1

/-- C107: in particular nobody logs in with a credential that was revoked and is not registered again.
Missing: what may be registered again (`C107_gone_refuted`). -/
theorem C107_gone_partial (codec : CodecLaws app.env) {f : Form} {now : Int} {n : Nat} {c : Credential}
    {name : String} (hf : Submits app f n c name) {j : Nat} (hj : ops[j]? = some (.revoke c.rawId))
    (hr : ∀ i name k, j < i → ¬ EnrolledAt (revokedReply app) app ops i c.rawId name k) :
    revokedReply app ops (.authenticationResponse f now) ≠ success := by
  intro h
  obtain ⟨i, k, _, _, _, _, h1, h2, -⟩ := C107_registered app codec ops f now n c name h hf
  rcases Nat.lt_trichotomy i j with hl | rfl | hl
  · exact h2 ⟨j, hl, hj⟩
  · obtain ⟨e, he, -⟩ := h1
    rw [AskedAt, hj] at he
    cases he
  · exact hr i name k hl h1

/-- C107: a success is for a challenge of at most 60000 ms before (C50). -/
theorem C107_fresh (app : App) : FreshThough (revokedReply app) app := by
  rintro ops e t n c name ⟨hs, hf⟩
  dsimp only at hs
  rw [revokedReply_remaining] at hs
  obtain ⟨pre, e', ch, t', name', d, text, h2, h3, h4⟩ :=
    C50_fresh_challenge (show Succeeds app _ e t n c name from ⟨hs, hf⟩)
  obtain ⟨i, ids, g1, g2, g3, g4⟩ := occurs_remaining h2
  refine ⟨i, ch, t', name', d, text, ⟨e', g1, ?_⟩, h4⟩
  have : IssuesBy (fun _ e => (step app e (run app pre)).1) [] e' n ch t' name' := h3
  rw [g4] at this
  exact (issues_revokeAll ids).mp this

/-- C107: the counter of a login is above those of the logins with the credential since it was revoked
last (C47). -/
theorem C107_increasing (app : App) : IncreasingThough (revokedReply app) app := by
  rintro ops i c m f now n c' name' m' ⟨f1, t1, n1, name1, h1, h2, h3⟩ hm hr h hf hid hm'
  rw [revokedReply_remaining] at h
  have hc : ∀ id, Concerns app (.authenticationResponse f1 t1) id → ¬ RevokedAfter ops i id := by
    rintro id ⟨f2, t2, n2, c2, name2, he | he, h4, rfl⟩
    · cases he
    · cases he
      obtain ⟨-, rfl, -⟩ := submits_unique h3 h4
      exact hr
  obtain ⟨pre, ids, ⟨post, ho⟩, g3, g4⟩ := remaining_occurs h1 hc
  have hp : reply app pre (.authenticationResponse f1 t1) = success := by
    rw [reply, g4, step_revokeAll g3 (by rintro _ _ _ ⟨⟩)]
    exact h2
  rw [ho] at h
  obtain ⟨x, y, hx, hy, hxy⟩ := C47_flask_counters hp h3 h hf hid.symm
  rw [hasCounter_unique hm hx, hasCounter_unique hm' hy]
  exact hxy

theorem askedAt_mem {i : Nat} {e : Event} (h : AskedAt ops i e) : e ∈ askedIn ops :=
  List.mem_filterMap.mpr ⟨_, List.mem_of_getElem? h, rfl⟩

theorem concerns_unique {e : Event} {f : Form} {t : Int} {n : Nat} {c : Credential} {name : String} {id : Bytes}
    (he : e = .registrationResponse f t ∨ e = .authenticationResponse f t) (hf : Submits app f n c name)
    (h : Concerns app e id) : id = c.rawId := by
  obtain ⟨f2, t2, n2, c2, name2, he', h4, rfl⟩ := h
  have : f2 = f := by
    rcases he with rfl | rfl <;> rcases he' with he' | he' <;> cases he' <;> rfl
  subst this
  rw [(submits_unique hf h4).2.1]

/-- C107: one approval is good for one login, with a credential that is not revoked.  Missing:
credentials that are revoked, and registered again (`C107_one_login_refuted`). -/
theorem C107_one_login_partial (app : App) (codec : CodecLaws app.env) (json : JsonLaw app.env) :
    OneEachRevoked (revokedReply app) app fun ops id => .revoke id ∉ ops := by
  intro ops k acts i id name hno holder hr _
  have hnot : ∀ j, ¬ RevokedAfter ops j id := fun j ⟨q, _, hq⟩ => hno (List.mem_of_getElem? hq)
  obtain ⟨e, he, f, t, n, c, cdj, ob, o, raw, acd, rfl, h1, h2, h3, h4⟩ := hr
  subst h3
  obtain ⟨pre, ids, ho, g3, g4⟩ := remaining_occurs he fun id hid => by
    rw [concerns_unique (Or.inl rfl) h2 hid]
    exact hnot i
  have hreg : Registers app pre (.registrationResponse f t) c.rawId name k := by
    refine ⟨f, t, n, c, cdj, ob, o, raw, acd, rfl, ?_, h2, rfl, h4⟩
    rw [reply, g4, step_revokeAll g3 (by rintro _ _ _ ⟨⟩)]
    exact h1
  have holder' : Holder app.env k (Sent app ((remaining app ops).map Prod.snd)) acts := by
    refine holder_mono holder ?_
    rintro cdj raw sig ⟨f, t, n, c, name, handle, hm, h⟩
    refine ⟨f, t, n, c, name, handle, ?_, h⟩
    obtain ⟨⟨i, e'⟩, h1, h2⟩ := List.mem_map.mp hm
    rw [← h2]
    exact askedAt_mem (remaining_mem.mp h1).1
  obtain ⟨approval, a1, a2⟩ := C67_one_login_partial codec json holder' ho hreg
  -- the place of a login among what remains
  have place : ∀ j c', EnteredAt (revokedReply app) app ops c' j → c'.rawId = c.rawId →
      LoginAt app ((remaining app ops).map Prod.snd) c' ((remaining app ops).findIdx fun x => x.1 == j) ∧
        ((remaining app ops)[(remaining app ops).findIdx fun x => x.1 == j]?).map Prod.fst = some j := by
    rintro j c' ⟨f', t', n', name', b1, b2, b3⟩ hid
    have hm : (j, Event.authenticationResponse f' t') ∈ remaining app ops := remaining_mem.mpr ⟨b1, fun id hid' => by
      rw [concerns_unique (Or.inr rfl) b3 hid', hid]
      exact hnot j⟩
    obtain ⟨pre, post, hs⟩ := List.append_of_mem hm
    obtain ⟨-, -, ids, d1, d2⟩ := remaining_split hs
    have hidx : ((remaining app ops).findIdx fun x => x.1 == j) = pre.length := by
      have hp := remaining_sorted app ops
      rw [hs, List.pairwise_append] at hp
      rw [hs, List.findIdx_append, List.findIdx_eq_length_of_false (fun x hx => by
        have := hp.2.2 x hx _ (List.mem_cons_self ..)
        simpa using Nat.ne_of_lt this)]
      simp [List.findIdx_cons]
    rw [hidx, hs]
    refine ⟨⟨f', t', n', name', by simp, ?_, b3⟩, by simp⟩
    rw [List.map_append, List.take_left' (by simp), reply, d2, step_revokeAll d1 (by rintro _ _ _ ⟨⟩)]
    exact b2
  refine ⟨fun j => approval ((remaining app ops).findIdx fun x => x.1 == j), fun j c' hj hid =>
    a1 _ c' (place j c' hj hid).1 hid, ?_⟩
  intro j j' c1 c2 hj hid hj' hid' hij
  have := a2 _ _ c1 c2 (place j c1 hj hid).1 hid (place j' c2 hj' hid').1 hid' hij
  have e1 := (place j c1 hj hid).2
  rw [this, (place j' c2 hj' hid').2] at e1
  exact (Option.some.inj e1).symm

/-! ## Revoked credentials are refused -/

theorem barredRun_snoc (ops : List Op) (op : Op) : barredRun app (ops ++ [op]) = match op with
    | .request e => ((barredStep app e (barredRun app ops)).2, (barredRun app ops).2)
    | .revoke id => ((barredRun app ops).1, id :: (barredRun app ops).2) := by
  simp only [barredRun, List.foldl_append, List.foldl_cons, List.foldl_nil]
  cases op <;> rfl

theorem barred_listed {id : Bytes} : id ∈ (barredRun app ops).2 ↔ .revoke id ∈ ops := by
  induction ops using List.reverseRecOn with
  | nil => simp [barredRun]
  | append_singleton ops a ih =>
    rw [barredRun_snoc]
    cases a with
    | request e => simpa using ih
    | revoke id' => simp [ih, or_comm]

/-- The request is not one that is refused. -/
def Passed (app : App) (ops : List Op) (e : Event) : Prop := ∀ id, Concerns app e id → .revoke id ∉ ops

theorem barred_iff {e : Event} : ((credentialIn app e).any fun id => (barredRun app ops).2.contains id) = false ↔
    Passed app ops e := by
  simp only [Passed, concerns_iff, ← barred_listed (app := app)]
  cases credentialIn app e <;> simp

open Classical in
/-- The requests that were served. -/
noncomputable def passed (app : App) : List Op → List Event
  | ops => (ops.foldl (fun s op => (s.1 ++ [op], match op with
    | .request e => if Passed app s.1 e then s.2 ++ [e] else s.2
    | .revoke _ => s.2)) (([] : List Op), ([] : List Event))).2

open Classical in
theorem passed_snoc (ops : List Op) (op : Op) : passed app (ops ++ [op]) = match op with
    | .request e => if Passed app ops e then passed app ops ++ [e] else passed app ops
    | .revoke _ => passed app ops := by
  have : ∀ ops : List Op, (ops.foldl (fun s op => (s.1 ++ [op], match op with
    | .request e => if Passed app s.1 e then s.2 ++ [e] else s.2
    | .revoke _ => s.2)) (([] : List Op), ([] : List Event))).1 = ops := by
    intro ops
    induction ops using List.reverseRecOn with
    | nil => rfl
    | append_singleton l a ih =>
      rw [List.foldl_append]
      simp [ih]
  simp only [passed, List.foldl_append, List.foldl_cons, List.foldl_nil, this]

theorem barredRun_passed (app : App) (ops : List Op) : (barredRun app ops).1 = run app (passed app ops) := by
  induction ops using List.reverseRecOn with
  | nil => rfl
  | append_singleton ops a ih =>
    rw [barredRun_snoc, passed_snoc]
    cases a with
    | revoke id => exact ih
    | request e =>
      dsimp only [barredStep]
      by_cases h : Passed app ops e
      · rw [barred_iff.mpr h, if_pos h, run_snoc, ih]
        rfl
      · rw [if_neg h]
        have : ((credentialIn app e).any fun id => (barredRun app ops).2.contains id) = true := by
          by_contra hb
          exact h (barred_iff.mp (Bool.eq_false_iff.mpr hb))
        rw [this]
        exact ih

theorem passed_requests (app : App) (evs : List Event) : passed app (evs.map .request) = evs := by
  induction evs using List.reverseRecOn with
  | nil => rfl
  | append_singleton evs e ih =>
    rw [List.map_append, List.map_singleton, passed_snoc]
    dsimp only
    have h : Passed app (evs.map .request) e := fun id _ => by simp
    rw [if_pos h, ih]

/-- C107: the refusals. -/
theorem C107_barred_refused {e : Event} {id : Bytes} (h : Concerns app e id) (hr : .revoke id ∈ ops) :
    barredReply app ops e = .text "Revoked credential" 400 ∧ (barredRun app (ops ++ [.request e])).1 = (barredRun app ops).1 := by
  have : ((credentialIn app e).any fun id => (barredRun app ops).2.contains id) = true := by
    by_contra hb
    exact barred_iff.mp (Bool.eq_false_iff.mpr hb) id h hr
  refine ⟨?_, ?_⟩
  · rw [barredReply, barredStep, this]
    rfl
  · rw [barredRun_snoc]
    dsimp only [barredStep]
    rw [this]
    rfl

theorem barredReply_passed {e : Event} (h : Passed app ops e) :
    barredReply app ops e = reply app (passed app ops) e := by
  rw [barredReply, barredStep, barred_iff.mpr h, barredRun_passed]
  rfl

theorem barred_success {e : Event} (h : barredReply app ops e = success) :
    Passed app ops e ∧ reply app (passed app ops) e = success := by
  have hp : Passed app ops e := by
    intro id hid hr
    rw [(C107_barred_refused hid hr).1] at h
    simp [success] at h
  exact ⟨hp, by rw [← barredReply_passed hp]; exact h⟩

/-- C107: revoking a credential changes no reply to a request that does not concern it. -/
theorem C107_barred_others {e : Event} {id : Bytes} (h : ¬ Concerns app e id) :
    barredReply app (ops ++ [.revoke id]) e = barredReply app ops e := by
  have : credentialIn app e ≠ some id := fun hc => h (concerns_iff.mpr hc)
  simp only [barredReply, barredStep, barredRun_snoc]
  cases hc : credentialIn app e with
  | none => rfl
  | some i =>
    have hi : i ≠ id := fun hi => this (by rw [hc, hi])
    simp [hi]

/-- C107: nobody logs in with a credential that was revoked, … -/
theorem C107_barred_gone (app : App) : Gone (barredReply app) app := by
  intro ops f now n c name hf hr h
  exact (barred_success h).1 c.rawId ⟨f, now, n, c, name, Or.inr rfl, hf, rfl⟩ hr

/-- … or registers it. -/
theorem C107_barred_registers {i : Nat} {id : Bytes} {name : String} {k : CPK}
    (h : EnrolledAt (barredReply app) app ops i id name k) : .revoke id ∉ ops.take i := by
  obtain ⟨e, -, f, t, n, c, cdj, ob, o, raw, acd, rfl, h1, h2, h3, -⟩ := h
  exact (barred_success h1).1 id ⟨f, t, n, c, name, Or.inl rfl, h2, h3⟩

theorem passed_prefix (i : Nat) : passed app (ops.take i) <+: passed app ops := by
  induction ops using List.reverseRecOn with
  | nil => simp
  | append_singleton ops a ih =>
    rcases Nat.lt_or_ge ops.length i with h | h
    · rw [List.take_of_length_le (by simp; omega)]
      exact List.prefix_rfl
    · rw [List.take_append_of_le_length h, passed_snoc]
      cases a with
      | revoke id => exact ih
      | request e =>
        dsimp only
        split
        · exact ih.trans (List.prefix_append ..)
        · exact ih

theorem passed_at {i : Nat} {e : Event} (h : AskedAt ops i e) (hp : Passed app (ops.take i) e) :
    passed app (ops.take i) ++ [e] <+: passed app ops := by
  have := passed_prefix (app := app) (ops := ops) (i + 1)
  rw [List.take_add_one, h, Option.toList_some, passed_snoc] at this
  dsimp only at this
  rwa [if_pos hp] at this

theorem passed_occurs {i : Nat} {e : Event} (h : AskedAt ops i e) (hp : Passed app (ops.take i) e) :
    Occurs (passed app ops) (passed app (ops.take i)) e := by
  obtain ⟨post, hs⟩ := passed_at h hp
  exact ⟨post, by rw [← hs]; simp⟩

theorem occurs_passed {pre : List Event} {e : Event} (h : Occurs (passed app ops) pre e) :
    ∃ i, AskedAt ops i e ∧ Passed app (ops.take i) e ∧ passed app (ops.take i) = pre := by
  obtain ⟨post, h⟩ := h
  induction ops using List.reverseRecOn generalizing post with
  | nil => simp [passed] at h
  | append_singleton ops a ih =>
    have key : ∀ post, passed app ops = pre ++ e :: post → ∃ i, AskedAt (ops ++ [a]) i e ∧
        Passed app ((ops ++ [a]).take i) e ∧ passed app ((ops ++ [a]).take i) = pre := by
      intro post h
      obtain ⟨i, h1, h2⟩ := ih post h
      have hi := (List.getElem?_eq_some_iff.mp h1).1
      refine ⟨i, ?_, ?_⟩
      · rw [AskedAt, List.getElem?_append_left hi]
        exact h1
      · rw [List.take_append_of_le_length hi.le]
        exact h2
    rw [passed_snoc] at h
    cases a with
    | revoke id => exact key _ h
    | request x =>
      dsimp only at h
      split at h
      · rename_i hp
        rcases List.eq_nil_or_concat post with rfl | ⟨post, y, rfl⟩
        · obtain ⟨h1, h2⟩ := List.append_inj' h rfl
          obtain rfl := (List.cons.inj h2).1
          exact ⟨ops.length, by simp [AskedAt], by simpa using hp, by simpa using h1⟩
        · rw [List.concat_eq_append, ← List.cons_append, ← List.append_assoc] at h
          exact key _ (List.append_inj' h rfl).1
      · exact key _ h

/-- C107: a login is with a credential that was registered by the user and never revoked, … -/
theorem C107_barred_registered (app : App) (codec : CodecLaws app.env) : RevocationHolds (barredReply app) app := by
  intro ops f now n c name h hf
  obtain ⟨hp, h⟩ := barred_success h
  obtain ⟨n', c', name', pre, e, k, cdj, raw, sig, hd, h1, h2, h3, h4, h5⟩ := C49_login codec h
  obtain ⟨rfl, rfl, rfl⟩ := submits_unique hf h1
  obtain ⟨i, g1, g2, rfl⟩ := occurs_passed h2
  obtain ⟨f', t', n', c', cdj', ob, o, raw', acd, rfl, a1, a2, a3, a4⟩ := h3
  refine ⟨i, k, cdj, raw, sig, hd, ⟨_, g1, f', t', n', c', cdj', ob, o, raw', acd, rfl, ?_, a2, a3, a4⟩, ?_, h4, h5⟩
  · dsimp only
    rw [barredReply_passed g2]
    exact a1
  · rintro ⟨j, -, hj⟩
    exact hp c.rawId ⟨f, now, n, c, name, Or.inr rfl, hf, rfl⟩ (List.mem_of_getElem? hj)

/-- … for a challenge of at most 60000 ms before, … -/
theorem C107_barred_fresh (app : App) : FreshThough (barredReply app) app := by
  rintro ops e t n c name ⟨hs, hf⟩
  obtain ⟨hp, hs⟩ := barred_success hs
  obtain ⟨pre, e', ch, t', name', d, text, h2, h3, h4⟩ :=
    C50_fresh_challenge (show Succeeds app _ e t n c name from ⟨hs, hf⟩)
  obtain ⟨i, g1, g2, rfl⟩ := occurs_passed h2
  refine ⟨i, ch, t', name', d, text, ⟨e', g1, ?_, h3.2⟩, h4⟩
  dsimp only
  rw [barredReply_passed g2]
  exact h3.1

/-- … and one approval is good for one login, whatever is revoked. -/
theorem C107_barred_one_login (app : App) (codec : CodecLaws app.env) (json : JsonLaw app.env) :
    OneEachRevoked (barredReply app) app fun _ _ => True := by
  intro ops k acts i id name _ holder hr _
  obtain ⟨e, he, f, t, n, c, cdj, ob, o, raw, acd, rfl, h1, h2, h3, h4⟩ := hr
  obtain ⟨hp, h1⟩ := barred_success h1
  have hreg : Registers app (passed app (ops.take i)) (.registrationResponse f t) id name k :=
    ⟨f, t, n, c, cdj, ob, o, raw, acd, rfl, h1, h2, h3, h4⟩
  have holder' : Holder app.env k (Sent app (passed app ops)) acts := by
    refine holder_mono holder ?_
    rintro cdj raw sig ⟨f, t, n, c, name, handle, hm, h⟩
    refine ⟨f, t, n, c, name, handle, ?_, h⟩
    obtain ⟨pre, post, hs⟩ := List.append_of_mem hm
    obtain ⟨j, g1, -⟩ := occurs_passed ⟨post, hs⟩
    exact askedAt_mem g1
  obtain ⟨approval, a1, a2⟩ := C67_one_login_partial codec json holder' (passed_occurs he hp) hreg
  have place : ∀ j c', EnteredAt (barredReply app) app ops c' j →
      LoginAt app (passed app ops) c' (passed app (ops.take j)).length := by
    rintro j c' ⟨f', t', n', name', b1, b2, b3⟩
    obtain ⟨hp, b2⟩ := barred_success b2
    obtain ⟨post, hs⟩ := passed_occurs b1 hp
    exact ⟨f', t', n', name', by rw [hs]; simp, by rw [hs, List.take_left]; exact b2, b3⟩
  have later : ∀ j j' c', EnteredAt (barredReply app) app ops c' j → j < j' →
      (passed app (ops.take j)).length < (passed app (ops.take j')).length := by
    rintro j j' c' ⟨f', t', n', name', b1, b2, b3⟩ hj
    obtain ⟨hp, -⟩ := barred_success b2
    have h1 : AskedAt (ops.take j') j (.authenticationResponse f' t') := by
      rw [AskedAt, List.getElem?_take, if_pos hj]
      exact b1
    have := passed_at (app := app) h1 (by rwa [List.take_take, Nat.min_eq_left hj.le])
    rw [List.take_take, Nat.min_eq_left hj.le] at this
    have := this.length_le
    simp only [List.length_append, List.length_singleton] at this
    omega
  refine ⟨fun j => approval (passed app (ops.take j)).length, fun j c' hj hid => a1 _ c' (place j c' hj) hid, ?_⟩
  intro j j' c1 c2 hj hid hj' hid' hij
  have := a2 _ _ c1 c2 (place j c1 hj) hid (place j' c2 hj') hid' hij
  rcases Nat.lt_trichotomy j j' with h | h | h
  · exact absurd this (Nat.ne_of_lt (later j j' c1 hj h))
  · exact h
  · exact absurd this.symm (Nat.ne_of_lt (later j' j c2 hj' h))

end

end WebAuthn.Flask
