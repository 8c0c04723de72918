import Verif.Props.Initial

/-!
# The repaired registrar serves those whose counters grow (C82)
-/

namespace WebAuthn.Flask

open Spec Props

/-- The same row, with the counter of a registration instead of none. -/
def Raised (P : Bytes → Nat → Prop) (c c' : CredentialRow) : Prop :=
  c'.id = c.id ∧ c'.key = c.key ∧ c'.userId = c.userId ∧
    (c'.count = c.count ∨ c.count = none ∧ ∃ m : Nat, c'.count = some (m : Int) ∧ P c.id m)

/-- The same tables, but for such rows. -/
def RaisedDb (P : Bytes → Nat → Prop) (db db' : Db) : Prop :=
  ∃ l, db' = { db with credentials := l } ∧ List.Forall₂ (Raised P) db.credentials l

theorem raised_find {P : Bytes → Nat → Prop} {l l' : List CredentialRow}
    (h : List.Forall₂ (Raised P) l l') (i : Bytes) :
    (l.find? (fun c => c.id == i) = none ∧ l'.find? (fun c => c.id == i) = none) ∨
    ∃ c c', l.find? (fun c => c.id == i) = some c ∧ l'.find? (fun c => c.id == i) = some c' ∧
      Raised P c c' := by
  induction h with
  | nil => exact Or.inl ⟨rfl, rfl⟩
  | @cons c c' l l' h _ ih =>
    rw [List.find?_cons, List.find?_cons, h.1]
    cases hc : c.id == i with
    | true => exact Or.inr ⟨c, c', rfl, rfl, h⟩
    | false => exact ih

theorem raised_any {P : Bytes → Nat → Prop} {l l' : List CredentialRow}
    (h : List.Forall₂ (Raised P) l l') (i : Bytes) :
    (l'.any fun c => c.id == i) = l.any fun c => c.id == i := by
  induction h with
  | nil => rfl
  | cons h _ ih => rw [List.any_cons, List.any_cons, h.1, ih]

theorem raised_ids {P : Bytes → Nat → Prop} {l l' : List CredentialRow}
    (h : List.Forall₂ (Raised P) l l') (u : Nat) :
    ((l'.filter fun c => c.userId == u).map fun c => ({ id := c.id } : FullDescriptor)) =
      (l.filter fun c => c.userId == u).map fun c => { id := c.id } := by
  induction h with
  | nil => rfl
  | cons h _ ih =>
    rw [List.filter_cons, List.filter_cons, h.2.2.1]
    split
    · rw [List.map_cons, List.map_cons, ih, h.1]
    · exact ih

theorem raised_setCount {P : Bytes → Nat → Prop} {l l' : List CredentialRow}
    (h : List.Forall₂ (Raised P) l l') (i : Bytes) (n : Int) :
    List.Forall₂ (Raised P) (l.map (setCount i n)) (l'.map (setCount i n)) := by
  induction h with
  | nil => exact .nil
  | @cons c c' l l' h _ ih =>
    refine .cons ?_ ih
    obtain ⟨h1, h2, h3, h4⟩ := h
    unfold setCount
    rw [h1]
    split
    · exact ⟨rfl, h2, h3, Or.inl rfl⟩
    · exact ⟨h1, h2, h3, h4⟩

theorem map_setCount_other {l : List CredentialRow} {i : Bytes} {n : Int}
    (h : (l.any fun c => c.id == i) = false) : l.map (setCount i n) = l := by
  induction l with
  | nil => rfl
  | cons c l ih =>
    rw [List.any_cons, Bool.or_eq_false_iff] at h
    rw [List.map_cons, ih h.2, setCount, h.1]
    rfl

variable {app : App} {P : Bytes → Nat → Prop} {db db' : Db}

theorem readResponse_raised (h : RaisedDb P db db') (att : Bool) (f : Form) (t : Int) :
    readResponse app att f t db' = readResponse app att f t db := by
  obtain ⟨l, rfl, -⟩ := h
  rfl

/-- A counter that was not stored, and one that the new one exceeds, make no difference. -/
theorem assertionChecks_raised {env : Env} {a : AssertionArgs} {al : List Origin} {cd : CredentialData}
    {x y : Option Int} (h : x = y ∨ x = none ∧ ∃ m : Nat, y = some (m : Int) ∧
      ∀ k, HasCounter a.credential k → m < k) :
    assertionChecks env a al { cd with signatureCount := y } =
      assertionChecks env a al { cd with signatureCount := x } := by
  rcases h with rfl | ⟨rfl, m, rfl, hm⟩
  · rfl
  · unfold assertionChecks
    simp only
    cases h1 : resolveUser a.user cd.user a.credential.response with
    | error e => rfl
    | ok user =>
      cases h2 : resolveRp a.rp cd.rp with
      | error e => rfl
      | ok rp =>
        cases hr : a.credential.response with
        | attestation cdj ob => rfl
        | assertion cdj raw sig handle =>
          simp only [Response.authenticatorData, Response.signature, Response.clientDataJSON]
          cases hcc : checkClientData env cdj "webauthn.get" a.expectedChallenge al a.tokenBinding with
          | error e => rfl
          | ok _ =>
          simp only [bind, Except.bind]
          cases h3 : parseAuthenticatorData env raw with
          | error e => rfl
          | ok ad =>
            have hlt : m < ad.signCount := hm _ ⟨cdj, raw, sig, handle, hr,
              (authDataOf_head (parseAuthenticatorData_ok_iff.mp h3)).2.2.2⟩
            have : checkSignCount (some (m : Int)) ad.signCount a.ignoreCloneError =
                checkSignCount none ad.signCount a.ignoreCloneError := by
              have : ¬ ((ad.signCount : Int) ≤ m) := by omega
              simp [checkSignCount, require, this]
            simp only [this]

theorem credentialData_raised {env : Env} (h : RaisedDb P db db') (i : Bytes) :
    (credentialData env i db' = credentialData env i db ∧ ∀ cd, credentialData env i db ≠ .ok (some cd)) ∨
    ∃ (cd : CredentialData) (x y : Option Int), credentialData env i db = .ok (some { cd with signatureCount := x }) ∧
      credentialData env i db' = .ok (some { cd with signatureCount := y }) ∧
      (x = y ∨ x = none ∧ ∃ m : Nat, y = some (m : Int) ∧ P i m) := by
  obtain ⟨l, rfl, hl⟩ := h
  unfold credentialData Db.credential
  rcases raised_find hl i with ⟨h1, h2⟩ | ⟨c, c', h1, h2, hid, hk, hu, hc⟩
  · left
    simp only [h1, h2]
    exact ⟨trivial, fun cd h => nomatch h⟩
  · have hi : c.id = i := by simpa using List.find?_some h1
    simp only [h1, h2, hk, hu]
    cases parseCoseKeyBytes env c.key with
    | error e => exact Or.inl ⟨rfl, fun cd h => nomatch h⟩
    | ok key =>
      have : ∀ l : List CredentialRow, Db.userOfId { db with credentials := l } c.userId = db.userOfId c.userId :=
        fun _ => rfl
      simp only [this, ok_bind]
      cases db.userOfId c.userId with
      | none => exact Or.inl ⟨rfl, fun cd h => nomatch h⟩
      | some u =>
        refine Or.inr ⟨⟨key, none, u.entity, none⟩, c.count, c'.count, rfl, rfl, ?_⟩
        rcases hc with hc | ⟨hc, m, hm, hp⟩
        · exact Or.inl hc.symm
        · exact Or.inr ⟨hc, m, hm, hi ▸ hp⟩

theorem registerAssertion_raised (h : RaisedDb P db db') (r : AssertionRecord) :
    (registerAssertion r db').1 = (registerAssertion r db).1 ∧
      RaisedDb P (registerAssertion r db).2 (registerAssertion r db').2 := by
  obtain ⟨l, rfl, hl⟩ := id h
  unfold registerAssertion Db.credential
  rcases raised_find hl r.credential.rawId with ⟨h1, h2⟩ | ⟨c, c', h1, h2, -⟩
  · simp only [h1, h2]
    exact ⟨trivial, h⟩
  · simp only [h1, h2]
    exact ⟨trivial, _, rfl, raised_setCount hl _ _⟩

theorem handleAssertion_raised {env : Env} (h : RaisedDb P db db') {a : AssertionArgs}
    (hp : ∀ m k, P a.credential.rawId m → HasCounter a.credential k → m < k) :
    (handleAssertion env (registrar env) a db').1 = (handleAssertion env (registrar env) a db).1 ∧
      RaisedDb P (handleAssertion env (registrar env) a db).2
        (handleAssertion env (registrar env) a db').2 := by
  unfold handleAssertion
  cases assertionPre env a with
  | error e => exact ⟨rfl, h⟩
  | ok al =>
    simp only [registrar]
    rcases credentialData_raised (env := env) h a.credential.rawId with ⟨h1, h2⟩ |
      ⟨cd, x, y, h1, h2, h3⟩
    · rw [h1]
      cases hc : credentialData env a.credential.rawId db with
      | error e =>
        cases hr : checkRead (.error e) with
        | error e' => exact ⟨rfl, h⟩
        | ok cd =>
          exfalso
          simp only [checkRead] at hr
          cases he : e.isException <;> simp [he, raise] at hr
      | ok o =>
        cases o with
        | none => exact ⟨rfl, h⟩
        | some cd => exact absurd hc (h2 cd)
    · rw [h1, h2]
      simp only [checkRead]
      rw [assertionChecks_raised (x := x) (y := y)]
      · cases assertionChecks env a al { cd with signatureCount := x } with
        | error e => exact ⟨rfl, h⟩
        | ok r =>
          obtain ⟨g1, g2⟩ := registerAssertion_raised h r
          exact ⟨by simp only [g1], g2⟩
      · rcases h3 with h3 | ⟨h3, m, h4, h5⟩
        · exact Or.inl h3
        · exact Or.inr ⟨h3, m, h4, fun k hk => hp m k h5 hk⟩

theorem registerAttestation_raised {env : Env} (h : RaisedDb P db db') (r : AttestationRecord)
    (hp : r.att.authData.signCount ≠ 0 → P r.credential.rawId r.att.authData.signCount) :
    (initialAttestation env r db').1 = (registerAttestation env r db).1 ∧
      RaisedDb P (registerAttestation env r db).2 (initialAttestation env r db').2 := by
  obtain ⟨l, rfl, hl⟩ := id h
  unfold initialAttestation registerAttestation
  cases h1 : r.att.authData.attested with
  | none => exact ⟨rfl, h⟩
  | some acd =>
    have : ∀ l : List CredentialRow,
        Db.userOfHandle { db with credentials := l } r.user.id = db.userOfHandle r.user.id := fun _ => rfl
    simp only [this]
    cases db.userOfHandle r.user.id with
    | none => exact ⟨rfl, h⟩
    | some u =>
      simp only
      cases acd.credentialPublicKey with
      | none => exact ⟨rfl, h⟩
      | some k =>
        simp only
        cases coseKey env k with
        | error e => exact ⟨rfl, h⟩
        | ok key =>
          simp only [raised_any hl r.credential.rawId]
          cases hany : db.credentials.any fun c => c.id == r.credential.rawId with
          | true => exact ⟨rfl, h⟩
          | false =>
            simp only [Bool.false_eq_true, if_false]
            have new : ∀ x : Option Int, (x = none ∨ ∃ m : Nat, x = some (m : Int) ∧ P r.credential.rawId m) →
                List.Forall₂ (Raised P) (db.credentials ++ [⟨r.credential.rawId, none, key, u.id⟩])
                  (l ++ [⟨r.credential.rawId, x, key, u.id⟩]) := by
              intro x hx
              refine List.rel_append hl (.cons ⟨rfl, rfl, rfl, ?_⟩ .nil)
              rcases hx with rfl | hx
              · exact Or.inl rfl
              · exact Or.inr ⟨rfl, hx⟩
            by_cases hz : r.att.authData.signCount = 0
            · simp only [hz, if_true]
              exact ⟨trivial, _, rfl, new none (Or.inl rfl)⟩
            · simp only [hz, if_false]
              refine ⟨trivial, _, rfl, ?_⟩
              rw [List.map_append, map_setCount_other (raised_any hl _ ▸ hany)]
              have : [(⟨r.credential.rawId, none, key, u.id⟩ : CredentialRow)].map
                  (setCount r.credential.rawId r.att.authData.signCount) =
                  [⟨r.credential.rawId, some (r.att.authData.signCount : Int), key, u.id⟩] := by
                simp [setCount]
              simp only [this]
              exact new _ (Or.inr ⟨_, rfl, hp hz⟩)

theorem handleAttestation_raised {env : Env} (h : RaisedDb P db db') {a : AttestationArgs}
    (hp : ∀ m, m ≠ 0 → HasInitialCounter env a.credential m → P a.credential.rawId m) :
    (handleAttestation env (initialRegistrar env) a db').1 =
        (handleAttestation env (registrar env) a db).1 ∧
      RaisedDb P (handleAttestation env (registrar env) a db).2
        (handleAttestation env (initialRegistrar env) a db').2 := by
  unfold handleAttestation
  cases hc : attestationChecks env a with
  | error e => exact ⟨rfl, h⟩
  | ok r =>
    obtain ⟨-, ⟨raw, h1⟩, -, h2, -⟩ := attestationChecks_ok_iff.mp hc
    obtain ⟨g1, g2⟩ := registerAttestation_raised (env := env) h r
      (fun hz => h2 ▸ hp _ hz (attestationOk_counter h1))
    exact ⟨by simp only [initialRegistrar, registrar, g1], g2⟩

theorem step_raised {e : Event} (h : RaisedDb P db db')
    (hlog : ∀ id m k, P id m → LogsIn app [e] id k → m < k)
    (hreg : ∀ id m, m ≠ 0 → SignsUp app [e] id m → P id m) :
    (initialStep app e db').1 = (step app e db).1 ∧ RaisedDb P (step app e db).2 (initialStep app e db').2 := by
  cases e with
  | registrationRequest name hd ch t =>
    show (registrationRequest name hd ch t db').1 = (registrationRequest name hd ch t db).1 ∧
      RaisedDb P (registrationRequest name hd ch t db).2 (registrationRequest name hd ch t db').2
    obtain ⟨l, rfl, hl⟩ := id h
    unfold registrationRequest
    cases name with
    | none => exact ⟨rfl, h⟩
    | some name =>
      simp only [findOrAddUser, Db.userNamed, Db.addUser, Db.addChallenge]
      cases db.users.find? fun u => u.username == name with
      | some u =>
        simp only
        cases db.challenges.any fun c => c.request == ch <;> exact ⟨rfl, l, rfl, hl⟩
      | none =>
        simp only
        cases db.users.any fun u => u.username == name || u.handle == hd with
        | true => exact ⟨rfl, l, rfl, hl⟩
        | false =>
          simp only [Bool.false_eq_true, if_false]
          cases db.challenges.any fun c => c.request == ch <;> exact ⟨rfl, l, rfl, hl⟩
  | authenticationRequest name ch t =>
    show (authenticationRequest name ch t db').1 = (authenticationRequest name ch t db).1 ∧
      RaisedDb P (authenticationRequest name ch t db).2 (authenticationRequest name ch t db').2
    obtain ⟨l, rfl, hl⟩ := id h
    unfold authenticationRequest
    cases name with
    | none => exact ⟨rfl, h⟩
    | some name =>
      simp only [Db.userNamed, Db.addChallenge]
      cases db.users.find? fun u => u.username == name with
      | none => exact ⟨rfl, h⟩
      | some u =>
        simp only [raised_ids hl]
        cases db.challenges.any fun c => c.request == ch <;> exact ⟨rfl, l, rfl, hl⟩
  | registrationResponse f t =>
    show (initialResponse app f t db').1 = (registrationResponse app f t db).1 ∧
      RaisedDb P (registrationResponse app f t db).2 (initialResponse app f t db').2
    unfold initialResponse registrationResponse
    rw [readResponse_raised h]
    cases hr : readResponse app true f t db with
    | error r => exact ⟨rfl, h⟩
    | ok x =>
      obtain ⟨c, ch, u⟩ := x
      obtain ⟨n, name, hf, -⟩ := readResponse_ok_iff.mp hr
      obtain ⟨g1, g2⟩ := handleAttestation_raised (env := app.env) (a := attestationArgs c ch u) h
        fun m hz hm => hreg _ m hz ⟨f, t, n, c, name, List.mem_singleton.mpr rfl, hf, rfl, hm⟩
      exact ⟨by simp only [g1], g2⟩
  | authenticationResponse f t =>
    show (authenticationResponse app f t db').1 = (authenticationResponse app f t db).1 ∧
      RaisedDb P (authenticationResponse app f t db).2 (authenticationResponse app f t db').2
    unfold authenticationResponse
    rw [readResponse_raised h]
    cases hr : readResponse app false f t db with
    | error r => exact ⟨rfl, h⟩
    | ok x =>
      obtain ⟨c, ch, u⟩ := x
      obtain ⟨n, name, hf, -⟩ := readResponse_ok_iff.mp hr
      obtain ⟨g1, g2⟩ := handleAssertion_raised (env := app.env) (a := assertionArgs c ch u) h
        fun m k hm hk => hlog _ m k hm ⟨f, t, n, c, name, List.mem_singleton.mpr rfl, hf, rfl, hk⟩
      exact ⟨by simp only [g1], g2⟩

theorem run_raised {all : List Event}
    (h : ∀ id m k, SignsUp app all id m → LogsIn app all id k → m ≠ 0 → m < k) (l : List Event)
    (hl : l <+: all) :
    RaisedDb (fun id m => m ≠ 0 ∧ SignsUp app all id m) (run app l) (initialRun app l) := by
  induction l using List.reverseRecOn with
  | nil => exact ⟨[], rfl, .nil⟩
  | append_singleton l e ih =>
    rw [run_snoc, initialRun_snoc]
    have he : ∀ x ∈ [e], x ∈ all := fun x hx => hl.subset (List.mem_append_right _ hx)
    refine (step_raised (ih ((List.prefix_append _ _).trans hl)) ?_ ?_).2
    · rintro id m k ⟨hz, hs⟩ ⟨f, t, n, c, name, hm, hr⟩
      exact h id m k hs ⟨f, t, n, c, name, he _ hm, hr⟩ hz
    · rintro id m hz ⟨f, t, n, c, name, hm, hr⟩
      exact ⟨hz, f, t, n, c, name, he _ hm, hr⟩

/-- C82: the repaired application answers as the application does, when the counters of
logins exceed those of the registrations of their credentials, or the latter are zero. -/
theorem C82_repaired_serves {evs : List Event} {e : Event}
    (h : ∀ id m k, SignsUp app (evs ++ [e]) id m → LogsIn app (evs ++ [e]) id k → m ≠ 0 → m < k) :
    initialReply app evs e = reply app evs e := by
  have he : ∀ x ∈ [e], x ∈ evs ++ [e] := fun x hx => List.mem_append_right _ hx
  refine (step_raised (run_raised h evs (List.prefix_append _ _)) ?_ ?_).1
  · rintro id m k ⟨hz, hs⟩ ⟨f, t, n, c, name, hm, hr⟩
    exact h id m k hs ⟨f, t, n, c, name, he _ hm, hr⟩ hz
  · rintro id m hz ⟨f, t, n, c, name, hm, hr⟩
    exact ⟨hz, f, t, n, c, name, he _ hm, hr⟩

end WebAuthn.Flask
