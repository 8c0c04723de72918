import Verif.Props.Kills
import Verif.Props.Retry

/-!
# A registration whose reply was lost is sent again (C111)
-/

namespace WebAuthn.Flask

open WebAuthn WebAuthn.Spec WebAuthn.Props

/-- In `n` statements the request does not succeed. -/
def Never : Nat → Task → Prop
  | 0, t => t ≠ .done success
  | n + 1, t => t ≠ .done success ∧ ∀ db, Never n (t.step db).1

theorem never_done (n : Nat) {r : Reply} (h : r ≠ success) : Never n (.done r) := by
  induction n with
  | zero => simpa [Never] using h
  | succ n ih => exact ⟨by simpa using h, fun db => ih⟩

theorem never_read {app : App} {att : Bool} {f : Form} {now : Int} {k : Credential → Challenge → User → Task}
    (h : ∀ cid c name, parseForm app.env f = .ok (cid, c, name) → ∀ ch u n, Never n (k c ch u)) (n : Nat) :
    Never n (readTask app att f now k) := by
  unfold readTask
  split
  · split <;> exact never_done _ (by simp [success])
  · rename_i cid c name hp
    split
    · exact never_done _ (by simp [success])
    · cases n with
      | zero => simp [Never]
      | succ n =>
        refine ⟨by simp, fun db => ?_⟩
        simp only [Task.step]
        split
        · exact never_done _ (by simp [success])
        · cases n with
          | zero => simp [Never]
          | succ n =>
            refine ⟨by simp, fun db => ?_⟩
            simp only [Task.step]
            split
            · exact never_done _ (by simp [success])
            · split
              · exact never_done _ (by simp [success])
              · exact h _ _ _ hp _ _ _

variable {ι : Type} [DecidableEq ι] {app : App} {reqs : ι → Event} {ticks : List (Tick ι)} {sched : List ι}

theorem never_answer {i : ι} (h : ∀ n, Never n (task app (reqs i))) : answer app reqs sched i ≠ some success := by
  have main : ∀ n, Never n ((serveAll app reqs sched).tasks i) := by
    induction sched using List.reverseRecOn with
    | nil => exact h
    | append_singleton l j ih =>
      intro n
      rw [serveAll_snoc]
      simp only [Server.step]
      split
      · subst_vars
        exact (ih (n + 1)).2 _
      · exact ih n
  rw [ne_eq, answer_some]
  exact main 0

/-- A registration that succeeds has passed the checks for some challenge and user. -/
theorem checks_passed {i : ι} {f : Form} {now : Int} {n : Nat} {c : Credential} {name : String}
    (hi : reqs i = .registrationResponse f now) (hs : Submits app f n c name)
    (h : answer app reqs sched i = some success) :
    ∃ ch u r, attestationChecks app.env (attestationArgs c ch u) = .ok r := by
  by_contra hn
  refine never_answer (i := i) ?_ h
  rw [hi]
  refine never_read fun cid c' name' hp ch u n => ?_
  obtain ⟨cid', text, d, h1, -, h3, h4, h5, h6⟩ := hs
  rw [parseForm_ok_iff.mpr ⟨h1, h6, text, d, h3, h4, h5⟩] at hp
  cases hp
  cases hc : attestationChecks app.env (attestationArgs c ch u) with
  | ok r => exact absurd ⟨ch, u, r, hc⟩ hn
  | error e =>
    simp only [attestationProg, hc, handlerTask]
    exact never_done _ conclude_error

/-- C111: a registration that the process has come to the end of, though the reply may be lost, is answered with success when
it is sent again after the kill, while its challenge is fresh, and changes nothing. -/
theorem C111_after_kill {i j : ι} {f : Form} {now now' : Int} {n : Nat} {c : Credential} {name : String} {ch : Bytes}
    {t : Int} {name' : String} (hi : reqs i = .registrationResponse f now) (hs : Submits app f n c name)
    (h : outcome Task.step app reqs ticks i = some success)
    (hj : IssuedBy (outcome Task.step app reqs) reqs ticks j n ch t name') (ht : now' - t ≤ 60000) :
    retryStep app (.registrationResponse f now') (tablesAfter Task.step app reqs ticks) =
      (success, tablesAfter Task.step app reqs ticks) := by
  rw [outcome_log halts_step, answerBy_step] at h
  have hj : IssuedAt app reqs (logOf Task.step app reqs ticks) j n ch t name' := by
    obtain ⟨⟨key, v, h1⟩, h2⟩ := hj
    rw [outcome_log halts_step, answerBy_step] at h1
    exact ⟨⟨key, v, h1⟩, h2⟩
  rw [tables_log halts_step, serveBy_step]
  obtain ⟨v, -, -, hrow⟩ := issuedAt_row hj
  obtain ⟨ch0, u0, r0, hr0⟩ := checks_passed hi hs h
  obtain ⟨hexp, ⟨raw0, cdj0, ob0, a1, -, a2, -⟩, a3, -⟩ := attestationChecks_ok_iff.mp hr0
  have a1 : c.response = .attestation cdj0 ob0 := a1
  have keyed := C63_tables app reqs (logOf Task.step app reqs ticks)
  rcases success_cases h with ⟨row, ⟨f', _, n', c', nm, chl, u, o, raw, acd, k, e1, e2, e3, e4, -, e5,
    e6, e7, e8, e9, e10, e11⟩, hr⟩ | ⟨_, _, ⟨_, _, _, _, _, _, _, _, _, _, _, _, _, e, -⟩⟩
  swap
  · rw [hi] at e
    cases e
  rw [hi] at e1
  cases e1
  obtain ⟨rfl, rfl, rfl⟩ := submits_unique hs e2
  generalize (serveAll app reqs (logOf Task.step app reqs ticks)).db = db at keyed hrow e3 e5 hr ⊢
  obtain rfl : chl = ⟨n, ch, t, v.id⟩ := by
    have h1 := keyed.find_challenge e3
    have h2 := keyed.find_challenge hrow
    rw [e4] at h1
    exact Option.some.inj (h1.symm.trans h2)
  have hstmt : o.attStmt = .none := by
    obtain ⟨cdj, ob, b1, -, b2, -⟩ := e7
    have b1 : c.response = .attestation cdj ob := b1
    rw [a1] at b1
    cases b1
    rw [attObj_unique b2 a2]
    exact a3
  have hread : readResponse app true f now' db = .ok (c, ⟨n, ch, t, v.id⟩, u) := by
    refine readResponse_ok_iff.mpr ⟨n, name, hs, by rw [a1]; rfl, keyed.find_challenge e3, e6 ▸ keyed.find_name e5, ht⟩
  have hchk : attestationChecks app.env (attestationArgs c ⟨n, ch, t, v.id⟩ u) =
      .ok ⟨c, o, .NONE, u.entity, rp, none⟩ :=
    attestationChecks_ok_iff.mpr ⟨hexp, ⟨raw, e7⟩, hstmt, rfl, rfl, rfl, rfl, rfl⟩
  have hst : alreadyStored app.env ⟨c, o, .NONE, u.entity, rp, none⟩ db = true := by
    refine alreadyStored_iff.mpr ⟨acd, u, k, row.key, e8, keyed.find_handle e5, e9, e10, ?_⟩
    have i1 := congrArg CredentialRow.id e11
    have i2 := congrArg CredentialRow.userId e11
    rw [← show row.userId = u.id from i2]
    rw [show row.id = c.rawId from i1] at hr
    exact hr
  have := handleAttestation_ok_iff.mpr ⟨_, hchk, show (retryRegistrar app.env).registerAttestation _ db =
    (.ok none, db) by simp only [retryRegistrar, retryAttestation, hst, if_true]⟩
  show retryResponse app f now' db = _
  simp only [retryResponse, hread, this]
  rfl

end WebAuthn.Flask
