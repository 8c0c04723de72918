import Verif.Spec.Memory
import Verif.Props.Answer

/-!
# What the application remembers of a history (C117)
-/

namespace WebAuthn.Flask

open WebAuthn WebAuthn.Spec WebAuthn.Props

variable {app : App} {evs evs' : List Event}

theorem pairwise_either {α : Type} {R : α → α → Prop} {l : List α} (h : l.Pairwise R) {a b : α} (ha : a ∈ l) (hb : b ∈ l)
    (hne : a ≠ b) : R a b ∨ R b a := by
  induction h with
  | nil => cases ha
  | cons h _ ih =>
    rcases List.mem_cons.mp ha with rfl | ha' <;> rcases List.mem_cons.mp hb with rfl | hb'
    · exact absurd rfl hne
    · exact Or.inl (h _ hb')
    · exact Or.inr (h _ ha')
    · exact ih ha' hb'

theorem registeredBefore_irrefl {a : Bytes} : ¬ RegisteredBefore app evs a a := by
  rintro ⟨p, x, name, k, -, hx, h⟩
  exact registers_new hx h

theorem registeredBefore_rows {a b : Bytes} (h : RegisteredBefore app evs a b) :
    a ∈ (run app evs).credentials.map CredentialRow.id ∧ b ∈ (run app evs).credentials.map CredentialRow.id := by
  obtain ⟨p, x, name, k, ⟨post, rfl⟩, hx, p', x', name', k', ⟨post', rfl⟩, hx'⟩ := h
  have h1 : WasRegistered app ((p' ++ x' :: post') ++ x :: post) a := ⟨p', x', name', k', ⟨post' ++ x :: post, by simp⟩, hx'⟩
  have h2 : WasRegistered app ((p' ++ x' :: post') ++ x :: post) b := ⟨_, x, name, k, ⟨post, rfl⟩, hx⟩
  exact ⟨List.mem_map.mpr (wasRegistered_row.mp h1), List.mem_map.mpr (wasRegistered_row.mp h2)⟩

/-- The tables of a history that had the same facts say the same. -/
theorem SameFacts.faithful (h : SameFacts app evs evs') : Faithful app evs (run app evs') := by
  obtain ⟨h1, h2, h3, h4, h5, h6, h7⟩ := C114_books app evs'
  refine ⟨h1.trans h.accounts.symm, fun n ch t name => (h2 n ch t name).trans (h.challenges n ch t name).symm, h3,
    fun id name key => (h4 id name key).trans (h.credentials id name key).symm, h5,
    fun c hc m => (h6 c hc m).trans (h.counters c.id m).symm, fun c hc => (h7 c hc).trans ⟨fun hn pre e m ho ha => ?_,
      fun hn pre e m ho ha => ?_⟩⟩
  · obtain ⟨m', hm⟩ := login_last ho ha
    obtain ⟨p, x, ho', ha'⟩ := lastLogin_occurs ((h.counters c.id m').mp hm)
    exact hn p x m' ho' ha'
  · obtain ⟨m', hm⟩ := login_last ho ha
    obtain ⟨p, x, ho', ha'⟩ := lastLogin_occurs ((h.counters c.id m').mpr hm)
    exact hn p x m' ho' ha'

theorem rows_same {db db' : Db} (k : Keyed db) (k' : Keyed db') (h : ∀ c, c ∈ db'.challenges ↔ c ∈ db.challenges) :
    db'.challenges = db.challenges := by
  have sub : ∀ {a b : Db}, Keyed a → Keyed b → (∀ c, c ∈ a.challenges → c ∈ b.challenges) →
      ∀ (i : Nat) (c : Challenge), a.challenges[i]? = some c → b.challenges[i]? = some c := by
    intro a b ka kb hs i c hc
    obtain ⟨j, hj⟩ := List.mem_iff_getElem?.mp (hs c (List.mem_iff_getElem?.mpr ⟨i, hc⟩))
    have h1 := ka.challengeIds i c hc
    have h2 := kb.challengeIds j c hj
    obtain rfl : i = j := by omega
    exact hj
  refine List.ext_getElem? fun i => Option.ext fun c => ?_
  exact ⟨sub k' k (fun c => (h c).mp) i c, sub k k' (fun c => (h c).mpr) i c⟩

/-- C117: histories with the same facts lead to the same tables, and only those. -/
theorem C117_facts (app : App) (evs evs' : List Event) : run app evs = run app evs' ↔ SameFacts app evs evs' := by
  constructor
  · intro h
    have f := C114_books app evs
    have f' := C114_books app evs'
    rw [← h] at f'
    refine ⟨f.users.symm.trans f'.users, fun n ch t name => (f.challenges n ch t name).symm.trans (f'.challenges n ch t name),
      fun id name key => (f.credentials id name key).symm.trans (f'.credentials id name key), ?_, ?_⟩
    · have hp := (rows_in_order app evs).and (h ▸ rows_in_order app evs')
      intro a b
      constructor
      · intro hab
        obtain ⟨ha, hb⟩ := registeredBefore_rows hab
        have hne : a ≠ b := fun e => registeredBefore_irrefl (e ▸ hab)
        rcases pairwise_either hp ha hb hne with hx | hx
        · exact hx.2
        · exact absurd (registeredBefore_antisymm hab hx.1) hne
      · intro hab
        obtain ⟨ha, hb⟩ := registeredBefore_rows hab
        rw [← h] at ha hb
        have hne : a ≠ b := fun e => registeredBefore_irrefl (e ▸ hab)
        rcases pairwise_either hp ha hb hne with hx | hx
        · exact hx.1
        · exact absurd (registeredBefore_antisymm hab hx.2) hne
    · intro id m
      constructor
      · intro hl
        obtain ⟨p, x, ho, ha⟩ := lastLogin_occurs hl
        obtain ⟨c, hc, rfl⟩ := login_row ho ha
        exact (f'.counters c hc m).mp ((f.counters c hc m).mpr hl)
      · intro hl
        obtain ⟨p, x, ho, ha⟩ := lastLogin_occurs hl
        obtain ⟨c, hc, rfl⟩ := login_row ho ha
        rw [← h] at hc
        exact (f.counters c hc m).mp ((f'.counters c hc m).mpr hl)
  · intro h
    have k := (C64_consistent_history app evs).keyed
    have k' := (C64_consistent_history app evs').keyed
    obtain ⟨h1, h2, h3⟩ := C114_determined (C114_books app evs) h.faithful k k'
    have h4 := rows_same k k' h2
    have i := (inv_run app evs).credentialIds
    have i' := (inv_run app evs').credentialIds
    have h5 : (run app evs).credentials = (run app evs').credentials := by
      refine List.Perm.eq_of_pairwise (le := fun a b => RegisteredBefore app evs a.id b.id) (fun a b ha hb hab hba => ?_)
        (List.pairwise_map.mp (rows_in_order app evs))
        ((List.pairwise_map.mp (rows_in_order app evs')).imp fun hx => (h.order _ _).mpr hx) ?_
      · have hid := registeredBefore_antisymm hab hba
        have hf := k.find_credential ha
        rw [hid, k.find_credential ((h3 b).mp hb)] at hf
        exact (Option.some.inj hf).symm
      · rw [List.perm_ext_iff_of_nodup (i.imp fun hx e => hx (by rw [e])) (i'.imp fun hx e => hx (by rw [e]))]
        exact fun c => (h3 c).symm
    generalize run app evs = db at *
    generalize run app evs' = db' at *
    obtain ⟨u, c, ch⟩ := db
    obtain ⟨u', c', ch'⟩ := db'
    simp only at h1 h4 h5
    rw [h1, h4, h5]

/-- C117: and nothing else of the history matters: after the same facts all requests are answered the same, for ever. -/
theorem C117_future {app : App} {evs evs' : List Event} (h : SameFacts app evs evs') (more : List Event) (e : Event) :
    reply app (evs ++ more) e = reply app (evs' ++ more) e := by
  have := (C117_facts app evs evs').mpr h
  simp only [reply, run, List.foldl_append] at this ⊢
  rw [this]

/-- C117: the facts stay the same. -/
theorem C117_stays {app : App} {evs evs' : List Event} (h : SameFacts app evs evs') (more : List Event) :
    SameFacts app (evs ++ more) (evs' ++ more) := by
  rw [← C117_facts] at h ⊢
  simp only [run, List.foldl_append] at h ⊢
  rw [h]

theorem login_counted {e : Event} {id : Bytes} {m : Int} (h : Authenticates app evs e id m) :
    run app (evs ++ [e]) = { run app evs with credentials := (run app evs).credentials.map (setCount id m) } := by
  obtain ⟨f, t, n, c, name, k, rfl, hs, h1, rfl, rfl, hk⟩ := h
  obtain ⟨_, _, _, ch, u, row, key, user, rp, ad, g1, -, -, -, -, -, -, -, -, hok, hrun⟩ := authentication_success hs
  obtain ⟨-, rfl, -⟩ := submits_unique h1 g1
  rw [hrun, hasCounter_unique hk (assertionOk_counter hok)]

/-- C117: the application forgets every login with a credential but the last. -/
theorem C117_forgets {app : App} {evs : List Event} {e e' : Event} {id : Bytes} {m m' : Int} (h : Authenticates app evs e id m)
    (h1 : Authenticates app (evs ++ [e]) e' id m') (h2 : Authenticates app evs e' id m') :
    SameFacts app (evs ++ [e, e']) (evs ++ [e']) := by
  rw [← C117_facts, login_counted h2, show evs ++ [e, e'] = evs ++ [e] ++ [e'] by simp, login_counted h1, login_counted h]
  simp only [List.map_map]
  congr 1
  refine List.map_congr_left fun c _ => ?_
  simp only [Function.comp, setCount]
  split <;> simp

end WebAuthn.Flask
