import Verif.Spec.Granted
import Verif.Props.Books

/-!
# When a response succeeds, by what happened before (C115)
-/

namespace WebAuthn.Flask

open WebAuthn WebAuthn.Spec WebAuthn.Props

variable {app : App} {evs : List Event}

theorem account_row {name : String} {h : Bytes} :
    AccountOpened evs name h ↔ ∃ u ∈ (run app evs).users, u.username = name ∧ u.handle = h := by
  rw [AccountOpened, ← C114_users app evs]
  simp [List.mem_map]

theorem read_presents {Kind : Response → Prop} {f : Form} {now : Int} {c : Credential} {ch : Challenge} {u : User}
    (h : Read app Kind f now (run app evs) c ch u) : Presents app Kind evs f now c ch.request u.username u.handle := by
  obtain ⟨⟨cid, ⟨text, d, h1, h2, h3, h4, h5⟩, h6⟩, h7, h8, h9, h10⟩ := h
  obtain ⟨pre, e, v, ho, -, -, hi⟩ := (inv_run app evs).challenges ch h8
  exact ⟨ch.id, ch.timestamp, v.username, pre, e, ⟨cid, text, d, h1, h6, h2, h3, h4, h5⟩, h7, ho, hi, h10,
    (account_row (app := app)).mpr ⟨u, h9, rfl, rfl⟩⟩

theorem presents_read {Kind : Response → Prop} {f : Form} {now : Int} {c : Credential} {ch : Bytes} {name : String} {h : Bytes}
    (hp : Presents app Kind evs f now c ch name h) : ∃ row u, Read app Kind f now (run app evs) c row u ∧
      row.request = ch ∧ u.username = name ∧ u.handle = h := by
  obtain ⟨n, t, name', pre, e, ⟨cid, text, d, h1, h6, h2, h3, h4, h5⟩, h7, ho, hi, h10, ha⟩ := hp
  obtain ⟨v, -, -, hv⟩ := issued_row ho hi
  obtain ⟨u, hu, rfl, rfl⟩ := (account_row (app := app)).mp ha
  exact ⟨_, u, ⟨⟨cid, ⟨text, d, h1, h2, h3, h4, h5⟩, h6⟩, h7, hv, hu, h10⟩, rfl, rfl, rfl⟩

theorem unread_fails {Kind : Response → Prop} {f : Form} {now : Int} {db : Db} {r : Reply} (h : Unread app Kind f now db r) :
    r ≠ success := by
  rw [success]
  cases h <;> simp

theorem told_fails {message : String} {e : Exc} {r : Reply} (h : Told message (.error e) r) : r ≠ success := by
  rw [success]
  cases h <;> simp

theorem wrote_fails {message : String} {e : Exc} {x : Py Unit} {r : Reply} (hw : Wrote (.error e) x) (h : Told message x r) :
    r ≠ success := by
  cases hw <;> exact told_fails h

/-- C115: a registration succeeds if and only if what happened before grants it. -/
theorem C115_registration (app : App) (evs : List Event) (f : Form) (now : Int) :
    reply app evs (.registrationResponse f now) = success ↔ RegistrationGranted app evs f now := by
  constructor
  · intro hs
    have h := C64_reply app evs (.registrationResponse f now)
    generalize run app (evs ++ [.registrationResponse f now]) = db' at h
    generalize reply app evs (.registrationResponse f now) = r at h hs
    cases h with
    | registrationUnread _ _ _ h => exact absurd hs (unread_fails h)
    | registrationRefused _ _ c ch u x y _ _ _ _ h => exact absurd hs (told_fails h)
    | registrationNoKey _ _ c ch u k e x _ _ _ _ hw h => exact absurd hs (wrote_fails hw h)
    | registrationTaken _ _ c ch u k key row _ _ _ _ _ => simp [success] at hs
    | registered _ _ c ch u k key hr ha hk hn =>
      refine ⟨c, ch.request, u.username, u.handle, k, key, read_presents hr, ha, hk, fun pre e name' k' ho hreg => ?_⟩
      obtain ⟨_, row, -, -, h1, h2, -⟩ := registered_row ho hreg
      exact hn row h1 h2
  · rintro ⟨c, ch, name, h, k, key, hp, ha, hk, hn⟩
    obtain ⟨row, u, hr, rfl, rfl, rfl⟩ := presents_read hp
    refine (C64_reply_only (.registered f now c row u k key hr ha hk fun x hx hid => ?_) (by simp)).1
    obtain ⟨pre, e, v, k', ho, -, -, hreg, -⟩ := (inv_run app evs).credentials x hx
    exact hn pre e _ k' ho (hid ▸ hreg)

/-- C115: a login succeeds if and only if what happened before grants it. -/
theorem C115_login (app : App) (evs : List Event) (f : Form) (now : Int) :
    reply app evs (.authenticationResponse f now) = success ↔ LoginGranted app evs f now := by
  constructor
  · intro hs
    have h := C64_reply app evs (.authenticationResponse f now)
    generalize run app (evs ++ [.authenticationResponse f now]) = db' at h
    generalize reply app evs (.authenticationResponse f now) = r at h hs
    cases h with
    | loginUnread _ _ _ h => exact absurd hs (unread_fails h)
    | loginUnknown _ _ c ch u _ _ => simp [success] at hs
    | loginNoKey _ _ c ch u row e x _ _ _ _ _ _ h => exact absurd hs (told_fails h)
    | loginRefused _ _ c ch u row cd x y _ _ _ _ _ _ _ h => exact absurd hs (told_fails h)
    | loggedIn _ _ c ch u row cd user rp ad hr hrow hid hst hok =>
      obtain ⟨d, rest, v, s1, s2, s3, s4, s5, s6, s7⟩ := hst
      obtain ⟨pre, e, w, k, ho, hw, hwi, hreg, hk⟩ := (inv_run app evs).credentials row hrow
      obtain rfl : v = w := (C64_consistent_history app evs).keyed.userId_unique s3 hw (s4.trans hwi.symm)
      refine ⟨c, ch.request, u.username, u.handle, pre, e, v.username, v.handle, k, row.key, cd, user, rp, ad,
        read_presents hr, ho, hid ▸ hreg, (account_row (app := app)).mpr ⟨v, s3, rfl, rfl⟩, hk, ⟨d, rest, s1, s2⟩, s6, s7,
        fun m => ?_, hok⟩
      rw [s5, ← hid]
      exact C114_counters app evs row hrow m
  · rintro ⟨c, ch, name, h, pre, e, owner, h', k, key, cd, user, rp, ad, hp, ho, hreg, ha, hk, ⟨d, rest, s1, s2⟩, s6, s7, hl,
      hok⟩
    obtain ⟨row, u, hr, rfl, rfl, rfl⟩ := presents_read hp
    obtain ⟨v, x, h1, h2, h3, h4, h5, h6⟩ := registered_row ho hreg
    obtain ⟨w, w1, w2, w3⟩ := (account_row (app := app)).mp ha
    have hkey : x.key = key := by
      rw [hk] at h6
      injection h6 with h6
      exact h6.symm
    have inv := inv_run app evs
    obtain rfl : v = w := by
      have := inv.find_name h1
      rw [h2, ← w2, inv.find_name w1] at this
      exact (Option.some.inj this).symm
    have hcount : cd.signatureCount = x.count := by
      refine Option.ext fun m => ?_
      rw [hl m, ← h4]
      exact (C114_counters app evs x h3 m).symm
    refine (C64_reply_only (.loggedIn f now c row u x cd user rp ad hr h3 h4
      ⟨d, rest, v, hkey ▸ s1, s2, h1, h5.symm, hcount, ?_, s7⟩ hok) (by simp)).1
    rw [s6, ← w2, ← w3]
    rfl

end WebAuthn.Flask
