import Verif.Model.SomeCredential
import Verif.Spec.SomeCredential
import Verif.Props.Guards
import Verif.Props.PageDemo

/-!
# Users without a credential (C93)
-/

namespace WebAuthn.Flask

open Spec Props

variable {app : App} {gs : List Guard} {evs : List Event} {name : String} {ch : Bytes} {t : Int}

/-! ## What holds of the code -/

/-- C93, what the options allow: the credentials of the user, so there is a restriction exactly for
users with a credential. -/
theorem C93_allowed {v opts : PyVal} (h : reply app evs (.authenticationRequest (some name) ch t) = .json v)
    (ho : Page.requestCall (.json v) = some opts) :
    (∃ id, AllowedIn opts id) ↔ HasRegistered (reply app) app evs name := by
  obtain ⟨opts', ids, h1, h2, -, h3⟩ := C57_request_argument h
  rw [ho] at h1
  cases h1
  constructor
  · rintro ⟨id, hid⟩
    obtain ⟨pre, e, k, h⟩ := (h3 id).mp (request_allowed h2 hid)
    exact ⟨pre, e, id, k, h⟩
  · rintro ⟨pre, e, id, k, h⟩
    exact ⟨id, (PageRun.request_has h2).2.2 id ((h3 id).mpr ⟨pre, e, k, h⟩)⟩

/-- C93, the part that holds: whoever logs in has a credential, whatever the options allowed.
Missing: that users without one get no options (`C93_refuted`). -/
theorem C93_login_partial (codec : CodecLaws app.env) {f : Form} {n : Nat} {c : Credential}
    (h : reply app evs (.authenticationResponse f t) = success) (hf : Submits app f n c name) :
    HasRegistered (reply app) app evs name := by
  obtain ⟨n', c', name', pre, e, k, -, -, -, -, h1, h2, h3, -⟩ := C49_login codec h
  obtain ⟨rfl, rfl, rfl⟩ := submits_unique hf h1
  exact ⟨pre, e, _, k, h2, h3⟩

theorem not_registered {e : Event} (he : formIn e = none) {rep : List Event → Event → Reply} :
    ¬ HasRegistered rep app [e] name := by
  rintro ⟨pre, e', id, k, ho, f, t, n, c, cdj, ob, o, raw, acd, rfl, -⟩
  obtain ⟨-, rfl⟩ := PageRun.occurs_one ho
  cases he

/-- C93 is false of the application: after a registration request, without a registration, the user
gets options with an empty list. -/
theorem C93_options (app : App) (name : String) (hd ch : Bytes) {ch' : Bytes} (t t' : Int) (hne : ch' ≠ ch) :
    ∃ v opts, reply app [.registrationRequest (some name) hd ch t]
        (.authenticationRequest (some name) ch' t') = .json v ∧
      Page.requestCall (.json v) = some opts ∧ (∀ id, ¬ AllowedIn opts id) ∧
      Known (reply app) [.registrationRequest (some name) hd ch t] name ∧
      ¬ HasRegistered (reply app) app [.registrationRequest (some name) hd ch t] name := by
  obtain ⟨w, hw⟩ := C57_registration_answered (app := app) (pre := []) name (hd := hd) (ch := ch) t
    (fun _ _ _ _ _ h => absurd h PageRun.nothing) (fun _ _ _ _ h => absurd h PageRun.nothing)
  obtain ⟨u, n, w', -, -, -, rfl, -⟩ := registrationRequest_json hw
  have hi : Issues app [] (.registrationRequest (some name) hd ch t) n ch t name :=
    ⟨⟨_, _, hw⟩, Or.inl ⟨hd, rfl⟩⟩
  obtain ⟨v, hv⟩ := C57_authentication_answered (app := app)
    (pre := [.registrationRequest (some name) hd ch t]) (ch := ch') t' (by
      rintro pre e m s nm ho ⟨-, hi⟩
      obtain ⟨-, rfl⟩ := PageRun.occurs_one ho
      rcases hi with ⟨_, hi⟩ | hi
      · cases hi
        exact hne rfl
      · cases hi) ⟨[], rfl⟩ hi
  obtain ⟨opts, ids, h1, -⟩ := C57_request_argument hv
  refine ⟨v, opts, hv, h1, fun id hid => ?_, ⟨_, _, n, ch, t, ⟨[], rfl⟩, hi⟩, not_registered rfl⟩
  exact not_registered rfl ((C93_allowed hv h1).mp ⟨id, hid⟩)

/-- C93 is false of every instance of the application. -/
theorem C93_refuted (app : App) : ¬ NothingToUse (reply app) app ∧ ¬ ToldSo (reply app) app ∧
    ¬ Restricted (reply app) := by
  obtain ⟨v, opts, h1, h2, h3, h4, h5⟩ := C93_options app "ada" [1] [1] (ch' := [2]) 0 0 (by decide)
  refine ⟨fun h => h5 (h _ _ _ _ _ h1), fun h => ?_, fun h => ?_⟩
  · rw [h _ _ _ _ h4 h5] at h1
    cases h1
  · obtain ⟨id, hid⟩ := h _ _ _ _ _ _ h1 h2
    exact h3 id hid

/-! ## The application with the check -/

theorem hasRegistered_guarded :
    HasRegistered (guardedReply app gs) app evs name ↔
      HasRegistered (reply app) app (servedOf app gs evs) name := by
  constructor
  · rintro ⟨pre, e, id, k, ho, hr⟩
    obtain ⟨hp, hr⟩ := registersBy_guarded.mp hr
    exact ⟨_, e, id, k, occurs_servedOf ho hp, hr⟩
  · rintro ⟨pre, e, id, k, ho, hr⟩
    obtain ⟨pre', g1, rfl, g2⟩ := servedOf_occurs ho
    exact ⟨pre', e, id, k, g1, registersBy_guarded.mpr ⟨g2, hr⟩⟩

/-- What the check finds in the tables. -/
theorem some_row {u : User} (hu : u ∈ (run app evs).users) :
    ((run app evs).credentials.any fun c => c.userId == u.id) = true ↔
      HasRegistered (reply app) app evs u.username := by
  have inv := inv_run app evs
  rw [List.any_eq_true]
  constructor
  · rintro ⟨row, hrow, h⟩
    obtain ⟨pre, e, u', k, h6, h7, h8, h9, -⟩ := inv.credentials row hrow
    obtain rfl : u' = u := inv.userId_unique h7 hu (h8.trans (by simpa using h))
    exact ⟨pre, e, _, k, h6, h9⟩
  · rintro ⟨pre, e, id, k, ho, hr⟩
    obtain ⟨u', row, h6, h7, h8, -, h9, -⟩ := registered_row ho hr
    obtain rfl : u' = u := pairwise_unique inv.names h6 hu h7
    exact ⟨row, h8, by simpa using h9⟩

theorem json_passes {e : Event} {v : PyVal} (h : guardedReply app gs evs e = .json v) :
    Passes app gs evs e ∧ reply app (servedOf app gs evs) e = .json v := by
  by_cases hp : Passes app gs evs e
  · rw [guardedReply_passes hp] at h
    exact ⟨hp, h⟩
  · obtain ⟨m, hm⟩ := guardedReply_refused hp
    rw [hm] at h
    cases h

/-- C93 of the repaired application, whatever other checks there are: users without a credential get
no options. -/
theorem C93_repaired (hg : someCredential ∈ gs) : NothingToUse (guardedReply app gs) app := by
  intro evs name ch t v h
  obtain ⟨hp, hv⟩ := json_passes h
  obtain ⟨u, n, w, h1, rfl, -⟩ := authenticationRequest_json hv
  have h2 := passes_guard hg hp
  simp only [someCredential, (inv_run app (servedOf app gs evs)).find_name h1, ite_eq_left_iff,
    reduceCtorEq, imp_false, not_not] at h2
  exact hasRegistered_guarded.mpr ((some_row h1).mp h2)

/-- C93 of the repaired application: the options restrict the client to some credentials. -/
theorem C93_repaired_restricted (hg : someCredential ∈ gs) : Restricted (guardedReply app gs) := by
  intro evs name ch t v opts h ho
  exact (C93_allowed (json_passes h).2 ho).mpr (hasRegistered_guarded.mp (C93_repaired hg evs name ch t v h))

/-- The other checks do not look at requests for options. -/
def OnlyResponses (gs : List Guard) : Prop :=
  ∀ g ∈ gs, g = someCredential ∨ ∀ log db e, formIn e = none → g log db e = none

theorem onlyResponses_all : OnlyResponses (someCredential :: allGuards app) := by
  intro g hg
  rcases List.mem_cons.mp hg with rfl | hg
  · exact Or.inl rfl
  · refine Or.inr fun log db e he => ?_
    simp only [allGuards, List.mem_cons, List.not_mem_nil, or_false] at hg
    cases e with
    | registrationResponse f1 t1 => cases he
    | authenticationResponse f1 t1 => cases he
    | registrationRequest _ _ _ _ => rcases hg with rfl | rfl | rfl | rfl | rfl | rfl | rfl <;> rfl
    | authenticationRequest _ _ _ => rcases hg with rfl | rfl | rfl | rfl | rfl | rfl | rfl <;> rfl

theorem refusedBy_only (h : OnlyResponses gs) {log : ServedLog} {db : Db} {e : Event}
    (he : formIn e = none) : refusedBy gs log db e = none ∨
      refusedBy gs log db e = someCredential log db e := by
  induction gs with
  | nil => exact Or.inl rfl
  | cons g gs ih =>
    have ih := ih fun g hg => h g (List.mem_cons_of_mem _ hg)
    simp only [refusedBy, List.findSome?_cons] at ih ⊢
    rcases h g (List.mem_cons_self ..) with rfl | hg
    · cases hs : someCredential log db e with
      | some m => exact Or.inr rfl
      | none => rwa [hs] at ih
    · rwa [hg log db e he]

theorem without_refused (hg : someCredential ∈ gs) (h : OnlyResponses gs)
    (hk : Known (guardedReply app gs) evs name) (hn : ¬ HasRegistered (guardedReply app gs) app evs name) :
    guardedStep app gs (.authenticationRequest (some name) ch t) (guardedRun app gs evs) =
      (.text "User without credential" 400, guardedRun app gs evs) := by
  obtain ⟨pre, e, n, ch', t', ho, hi⟩ := hk
  obtain ⟨hp, hi⟩ := issuesBy_guarded.mp hi
  obtain ⟨u, h1, rfl, -⟩ := issued_row (occurs_servedOf ho hp) hi
  rw [hasRegistered_guarded, ← some_row h1, Bool.not_eq_true] at hn
  have hs : someCredential (guardedRun app gs evs).1 (guardedRun app gs evs).2
      (.authenticationRequest (some u.username) ch t) = some "User without credential" := by
    rw [guardedRun_db]
    simp only [someCredential, (inv_run app (servedOf app gs evs)).find_name h1, hn, Bool.false_eq_true,
      if_false]
  have hr : refusedBy gs (guardedRun app gs evs).1 (guardedRun app gs evs).2
      (.authenticationRequest (some u.username) ch t) = some "User without credential" := by
    rcases refusedBy_only (log := (guardedRun app gs evs).1) (db := (guardedRun app gs evs).2) h
      (e := .authenticationRequest (some u.username) ch t) rfl with hr | hr
    · rw [List.findSome?_eq_none_iff.mp hr _ hg] at hs
      cases hs
    · rw [hr, hs]
  unfold guardedStep
  rw [hr]

/-- C93 of the repaired application: users without a credential are told so. -/
theorem C93_repaired_told (hg : someCredential ∈ gs) (h : OnlyResponses gs) :
    ToldSo (guardedReply app gs) app := by
  intro evs name ch t hk hn
  unfold guardedReply
  rw [without_refused hg h hk hn]

theorem guardedRun_append (evs later : List Event) : guardedRun app gs (evs ++ later) =
    later.foldl (fun s e => (guardedStep app gs e s).2) (guardedRun app gs evs) := by
  simp [guardedRun, List.foldl_append]

/-- C93 of the repaired application: such a request leaves no trace. -/
theorem C93_repaired_traceless (hg : someCredential ∈ gs) (h : OnlyResponses gs)
    (hk : Known (guardedReply app gs) evs name) (hn : ¬ HasRegistered (guardedReply app gs) app evs name)
    (later : List Event) (e : Event) :
    guardedReply app gs (evs ++ .authenticationRequest (some name) ch t :: later) e =
      guardedReply app gs (evs ++ later) e := by
  have : guardedRun app gs (evs ++ .authenticationRequest (some name) ch t :: later) =
      guardedRun app gs (evs ++ later) := by
    rw [guardedRun_append, guardedRun_append, List.foldl_cons, without_refused hg h hk hn]
  unfold guardedReply
  rw [this]

/-- C93: the repaired application answers as the application does, as long as those who ask to log
in have a credential, or no account at all. -/
theorem C93_repaired_serves (e : Event)
    (h : ∀ pre name ch t, Occurs (evs ++ [e]) pre (.authenticationRequest (some name) ch t) →
      HasRegistered (reply app) app pre name ∨
        ∀ pre' hd ch t, ¬ Occurs pre pre' (.registrationRequest (some name) hd ch t)) :
    guardedReply app [someCredential] evs e = reply app evs e := by
  have pass : ∀ l x, servedOf app [someCredential] l = l → Occurs (evs ++ [e]) l x →
      Passes app [someCredential] l x := by
    intro l x hl hx
    unfold Passes
    rw [guardedRun_db, hl]
    simp only [refusedBy, List.findSome?_cons, List.findSome?_nil]
    suffices hs : someCredential (guardedRun app [someCredential] l).1 (run app l) x = none by rw [hs]
    cases x with
    | authenticationRequest o c t =>
      cases o with
      | none => rfl
      | some name =>
        simp only [someCredential]
        cases hu : (run app l).userNamed name with
        | none => rfl
        | some u =>
          obtain ⟨h1, rfl⟩ := userNamed_some hu
          rcases h _ _ _ _ hx with h2 | h2
          · simp only [(some_row h1).mpr h2, if_true]
          · obtain ⟨pre, c, t, ho⟩ := users_requested app l u h1
            exact absurd ho (h2 _ _ _ _)
    | _ => rfl
  have served : ∀ l, l <+: evs → servedOf app [someCredential] l = l := by
    intro l
    induction l using List.reverseRecOn with
    | nil => exact fun _ => rfl
    | append_singleton l a ih =>
      intro hl
      have ih := ih ((List.prefix_append _ _).trans hl)
      obtain ⟨r, hr⟩ := hl
      have hp := pass l a ih ⟨r ++ [e], by rw [← hr]; simp⟩
      rcases servedOf_snoc (app := app) (gs := [someCredential]) l a with ⟨-, g⟩ | ⟨g, -⟩
      · rw [g, ih]
      · exact absurd hp g
  have hs := served evs List.prefix_rfl
  rw [guardedReply_passes (pass evs e hs ⟨[], rfl⟩), hs]

/-! ## A case -/

/-- Ada has asked to register, but has no credential: the application sends options to log in, the
repaired one tells her so. -/
example : (∃ v, reply PageRun.app [PageRun.request] (.authenticationRequest (some "ada") Run.challenge2 1000) =
      .json v) ∧
    guardedReply PageRun.app (someCredential :: allGuards PageRun.app) [PageRun.request]
      (.authenticationRequest (some "ada") Run.challenge2 1000) = .text "User without credential" 400 := by
  obtain ⟨v, opts, h1, -⟩ := C93_options PageRun.app "ada" Run.handle1 Run.challenge1
    (ch' := Run.challenge2) 0 1000 (by decide)
  refine ⟨⟨v, h1⟩, C93_repaired_told (List.mem_cons_self ..) onlyResponses_all _ _ _ _ ?_
    (not_registered rfl)⟩
  obtain ⟨v, -, -, hv, -⟩ := PageRun.registered
  obtain ⟨u, n, w, -, -, -, rfl, -⟩ := registrationRequest_json hv
  have hp : Passes PageRun.app (someCredential :: allGuards PageRun.app) [] PageRun.request := rfl
  refine ⟨[], PageRun.request, n, Run.challenge1, 0, ⟨[], rfl⟩, ⟨"creationOptions", w, ?_⟩, Or.inl ⟨_, rfl⟩⟩
  exact (guardedReply_passes hp).trans hv

/-- Once she has registered, the repaired application sends options, too. -/
example : ∃ f w, guardedReply PageRun.app [someCredential] [PageRun.request, .registrationResponse f 5000]
    (.authenticationRequest (some "ada") Run.challenge2 6000) = .json w := by
  obtain ⟨v, f, w, g, hv, hf, hr, hw, -⟩ := PageRun.logged_in
  refine ⟨f, w, (C93_repaired_serves _ ?_).trans hw⟩
  rintro pre name ch t ⟨post, h⟩
  left
  obtain rfl : pre = [PageRun.request, .registrationResponse f 5000] := by
    match pre, h with
    | [], h => cases (List.cons.inj h).1
    | [a], h => cases (List.cons.inj (List.cons.inj h).2).1
    | [a, b], h => rw [(List.cons.inj h).1, (List.cons.inj (List.cons.inj h).2).1]
    | a :: b :: c :: l, h =>
      exact absurd (List.cons.inj (List.cons.inj (List.cons.inj h).2).2).2 (by simp)
  cases (List.cons.inj (List.cons.inj (List.cons.inj h).2).2).1
  exact ⟨[PageRun.request], _, Demo.credId, Demo.key, ⟨[], rfl⟩, (PageRun.registers hv hf hr _).mpr rfl⟩

end WebAuthn.Flask
