import Verif.Model.Guards
import Verif.Spec.Guards
import Verif.Props.FlaskOwned
import Verif.Props.Initial

/-!
# Checks in front of the example application (C84)
-/

namespace WebAuthn.Flask

open WebAuthn WebAuthn.Spec WebAuthn.Props

section
variable {app : App} {gs : List Guard}

/-! ## The history that the application sees -/

/-- The requests that were not refused. -/
def servedOf (app : App) (gs : List Guard) (evs : List Event) : List Event :=
  (guardedRun app gs evs).1.map Prod.fst

/-- The checks do not refuse the request. -/
def Passes (app : App) (gs : List Guard) (evs : List Event) (e : Event) : Prop :=
  refusedBy gs (guardedRun app gs evs).1 (guardedRun app gs evs).2 e = none

theorem guardedRun_snoc (evs : List Event) (e : Event) :
    guardedRun app gs (evs ++ [e]) = (guardedStep app gs e (guardedRun app gs evs)).2 := by
  simp [guardedRun, List.foldl_append]

theorem guardedStep_passes {evs : List Event} {e : Event} (h : Passes app gs evs e) :
    guardedStep app gs e (guardedRun app gs evs) =
      ((step app e (guardedRun app gs evs).2).1,
        (guardedRun app gs evs).1 ++ [(e, (step app e (guardedRun app gs evs).2).1)],
        (step app e (guardedRun app gs evs).2).2) := by
  unfold guardedStep
  rw [show refusedBy gs _ _ e = none from h]

theorem guardedStep_refused {evs : List Event} {e : Event} (h : ¬ Passes app gs evs e) :
    ∃ m, guardedStep app gs e (guardedRun app gs evs) = (.text m 400, guardedRun app gs evs) := by
  unfold guardedStep
  obtain ⟨m, hm⟩ := Option.ne_none_iff_exists'.mp h
  exact ⟨m, by rw [hm]⟩

theorem servedOf_snoc (evs : List Event) (e : Event) :
    (Passes app gs evs e ∧ servedOf app gs (evs ++ [e]) = servedOf app gs evs ++ [e]) ∨
    (¬ Passes app gs evs e ∧ servedOf app gs (evs ++ [e]) = servedOf app gs evs) := by
  by_cases h : Passes app gs evs e
  · left
    refine ⟨h, ?_⟩
    rw [servedOf, guardedRun_snoc, guardedStep_passes h]
    simp [servedOf]
  · right
    refine ⟨h, ?_⟩
    obtain ⟨m, hm⟩ := guardedStep_refused h
    rw [servedOf, guardedRun_snoc, hm, servedOf]

/-- The tables are those of the application after the requests that were not refused. -/
theorem guardedRun_db (evs : List Event) : (guardedRun app gs evs).2 = run app (servedOf app gs evs) := by
  induction evs using List.reverseRecOn with
  | nil => rfl
  | append_singleton l e ih =>
    rcases servedOf_snoc (app := app) (gs := gs) l e with ⟨h, hs⟩ | ⟨h, hs⟩
    · rw [hs, run_snoc, guardedRun_snoc, guardedStep_passes h, ih]
    · obtain ⟨m, hm⟩ := guardedStep_refused h
      rw [hs, guardedRun_snoc, hm, ih]

theorem guardedReply_passes {evs : List Event} {e : Event} (h : Passes app gs evs e) :
    guardedReply app gs evs e = reply app (servedOf app gs evs) e := by
  rw [guardedReply, guardedStep_passes h, guardedRun_db]
  rfl

theorem guardedReply_refused {evs : List Event} {e : Event} (h : ¬ Passes app gs evs e) :
    ∃ m, guardedReply app gs evs e = .text m 400 := by
  obtain ⟨m, hm⟩ := guardedStep_refused h
  exact ⟨m, by rw [guardedReply, hm]⟩

theorem guardedReply_success {evs : List Event} {e : Event} : guardedReply app gs evs e = success ↔
    Passes app gs evs e ∧ reply app (servedOf app gs evs) e = success := by
  by_cases h : Passes app gs evs e
  · simp [h, guardedReply_passes h]
  · obtain ⟨m, hm⟩ := guardedReply_refused h
    simp [h, hm, success]

theorem servedOf_append (evs evs' : List Event) :
    ∃ more, servedOf app gs (evs ++ evs') = servedOf app gs evs ++ more ∧ ∀ e ∈ more, e ∈ evs' := by
  induction evs' using List.reverseRecOn with
  | nil => exact ⟨[], by simp, by simp⟩
  | append_singleton l e ih =>
    obtain ⟨more, h1, h2⟩ := ih
    rw [← List.append_assoc]
    rcases servedOf_snoc (app := app) (gs := gs) (evs ++ l) e with ⟨-, h⟩ | ⟨-, h⟩
    · refine ⟨more ++ [e], by rw [h, h1, List.append_assoc], fun x hx => ?_⟩
      rcases List.mem_append.mp hx with hx | hx
      · exact List.mem_append_left _ (h2 x hx)
      · exact List.mem_append_right _ hx
    · exact ⟨more, h.trans h1, fun x hx => List.mem_append_left _ (h2 x hx)⟩

theorem servedOf_mem {evs : List Event} {e : Event} (h : e ∈ servedOf app gs evs) : e ∈ evs := by
  obtain ⟨more, h1, h2⟩ := servedOf_append (app := app) (gs := gs) [] evs
  rw [List.nil_append] at h1
  rw [h1, show servedOf app gs [] = [] from rfl, List.nil_append] at h
  exact h2 e h

/-- What the application saw happened. -/
theorem servedOf_occurs {evs pre : List Event} {e : Event} (h : Occurs (servedOf app gs evs) pre e) :
    ∃ pre', Occurs evs pre' e ∧ servedOf app gs pre' = pre ∧ Passes app gs pre' e := by
  induction evs using List.reverseRecOn with
  | nil =>
    obtain ⟨post, h⟩ := h
    simp [servedOf, guardedRun] at h
  | append_singleton l a ih =>
    rcases servedOf_snoc (app := app) (gs := gs) l a with ⟨hp, hs⟩ | ⟨-, hs⟩
    · rw [hs] at h
      rcases occurs_snoc_cases h with h | ⟨rfl, rfl⟩
      · obtain ⟨pre', h1, h2⟩ := ih h
        exact ⟨pre', occurs_snoc h1, h2⟩
      · exact ⟨l, ⟨[], rfl⟩, rfl, hp⟩
    · rw [hs] at h
      obtain ⟨pre', h1, h2⟩ := ih h
      exact ⟨pre', occurs_snoc h1, h2⟩

theorem occurs_servedOf {evs pre : List Event} {e : Event} (h : Occurs evs pre e)
    (hp : Passes app gs pre e) : Occurs (servedOf app gs evs) (servedOf app gs pre) e := by
  obtain ⟨post, rfl⟩ := h
  obtain ⟨more, h1, -⟩ := servedOf_append (app := app) (gs := gs) (pre ++ [e]) post
  rw [List.append_assoc, List.singleton_append] at h1
  rcases servedOf_snoc (app := app) (gs := gs) pre e with ⟨-, h⟩ | ⟨h, -⟩
  · rw [h1, h]
    exact ⟨more, by simp⟩
  · exact absurd hp h

/-- The requests that were served are remembered with their replies. -/
theorem log_mem {evs : List Event} {e : Event} {r : Reply} :
    (e, r) ∈ (guardedRun app gs evs).1 ↔
      ∃ pre, Occurs evs pre e ∧ Passes app gs pre e ∧ guardedReply app gs pre e = r := by
  induction evs using List.reverseRecOn with
  | nil =>
    constructor
    · intro h
      simp [guardedRun] at h
    · rintro ⟨pre, ⟨post, h⟩, -⟩
      simp at h
  | append_singleton l a ih =>
    by_cases hp : Passes app gs l a
    · have hr : (guardedRun app gs (l ++ [a])).1 = (guardedRun app gs l).1 ++
          [(a, guardedReply app gs l a)] := by
        rw [guardedRun_snoc, guardedReply, guardedStep_passes hp]
      rw [hr, List.mem_append, ih, List.mem_singleton]
      constructor
      · rintro (⟨pre, h1, h2⟩ | h)
        · exact ⟨pre, occurs_snoc h1, h2⟩
        · cases h
          exact ⟨l, ⟨[], rfl⟩, hp, rfl⟩
      · rintro ⟨pre, h1, h2, rfl⟩
        rcases occurs_snoc_cases h1 with h | ⟨rfl, rfl⟩
        · exact Or.inl ⟨pre, h, h2, rfl⟩
        · exact Or.inr rfl
    · have hr : (guardedRun app gs (l ++ [a])).1 = (guardedRun app gs l).1 := by
        obtain ⟨m, hm⟩ := guardedStep_refused hp
        rw [guardedRun_snoc, hm]
      rw [hr, ih]
      constructor
      · rintro ⟨pre, h1, h2⟩
        exact ⟨pre, occurs_snoc h1, h2⟩
      · rintro ⟨pre, h1, h2, h3⟩
        rcases occurs_snoc_cases h1 with h | ⟨rfl, rfl⟩
        · exact ⟨pre, h, h2, h3⟩
        · exact absurd h2 hp

/-! ## The relations of the specification -/

theorem registersBy_guarded {pre : List Event} {e : Event} {id : Bytes} {name : String} {k : CPK} :
    RegistersBy (guardedReply app gs) app pre e id name k ↔
      Passes app gs pre e ∧ Registers app (servedOf app gs pre) e id name k := by
  constructor
  · rintro ⟨f, t, n, c, cdj, ob, o, raw, acd, h1, h2, h3⟩
    obtain ⟨h2, h4⟩ := guardedReply_success.mp h2
    exact ⟨h2, f, t, n, c, cdj, ob, o, raw, acd, h1, h4, h3⟩
  · rintro ⟨h0, f, t, n, c, cdj, ob, o, raw, acd, h1, h2, h3⟩
    exact ⟨f, t, n, c, cdj, ob, o, raw, acd, h1, guardedReply_success.mpr ⟨h0, h2⟩, h3⟩

theorem authenticatesBy_guarded {pre : List Event} {e : Event} {id : Bytes} {m : Nat} :
    AuthenticatesBy (guardedReply app gs) app pre e id m ↔
      Passes app gs pre e ∧ AuthenticatesBy (reply app) app (servedOf app gs pre) e id m := by
  constructor
  · rintro ⟨f, t, n, c, name, h1, h2, h3⟩
    obtain ⟨h2, h4⟩ := guardedReply_success.mp h2
    exact ⟨h2, f, t, n, c, name, h1, h4, h3⟩
  · rintro ⟨h0, f, t, n, c, name, h1, h2, h3⟩
    exact ⟨f, t, n, c, name, h1, guardedReply_success.mpr ⟨h0, h2⟩, h3⟩

theorem succeedsBy_guarded {pre : List Event} {e : Event} {t : Int} {n : Nat} {c : Credential}
    {name : String} : SucceedsBy (guardedReply app gs) app pre e t n c name ↔
      Passes app gs pre e ∧ Succeeds app (servedOf app gs pre) e t n c name := by
  rw [SucceedsBy, guardedReply_success, and_assoc]
  rfl

theorem issuesBy_guarded {pre : List Event} {e : Event} {n : Nat} {ch : Bytes} {t : Int}
    {name : String} : IssuesBy (guardedReply app gs) pre e n ch t name ↔
      Passes app gs pre e ∧ Issues app (servedOf app gs pre) e n ch t name := by
  by_cases h : Passes app gs pre e
  · rw [IssuesBy, guardedReply_passes h]
    exact ⟨fun x => ⟨h, x⟩, fun x => x.2⟩
  · obtain ⟨m, hm⟩ := guardedReply_refused h
    constructor
    · rintro ⟨⟨key, v, hr⟩, -⟩
      rw [hm] at hr
      cases hr
    · exact fun x => absurd x.1 h

theorem sent_servedOf {evs : List Event} {e : Event} {cdj raw sig : Bytes}
    (h : Sent app (servedOf app gs evs ++ [e]) cdj raw sig) : Sent app (evs ++ [e]) cdj raw sig := by
  obtain ⟨f', t', n', c', name', handle, hm, hs⟩ := h
  refine ⟨f', t', n', c', name', handle, ?_, hs⟩
  rcases List.mem_append.mp hm with hm | hm
  · exact List.mem_append_left _ (servedOf_mem hm)
  · exact List.mem_append_right _ hm

theorem holder_mono {env : Env} {k : CPK} {sent sent' : Bytes → Bytes → Bytes → Prop}
    {acts : Approval → Prop} (h : Holder env k sent acts)
    (sub : ∀ cdj raw sig, sent' cdj raw sig → sent cdj raw sig) : Holder env k sent' acts :=
  ⟨h.browser, fun cdj raw sig hs => h.unforged cdj raw sig (sub _ _ _ hs),
    fun cdj raw sig a hs => h.noCollision cdj raw sig a (sub _ _ _ hs), h.digest⟩

/-! ## Whatever the checks, the guarantees of the application hold -/

theorem loginNumber_unique {rep : List Event → Event → Reply} {evs : List Event} {i : Nat}
    {c c' : Credential} (h : LoginNumber rep app evs c i) (h' : LoginNumber rep app evs c' i) :
    c = c' := by
  obtain ⟨f, t, n, name, h1, -, h2⟩ := h
  obtain ⟨f', t', n', name', h1', -, h2'⟩ := h'
  rw [h1] at h1'
  cases h1'
  exact (submits_unique h2 h2').2.1

/-- One approval is good for one login, if logins are of registered credentials, with
increasing counters, and approved. -/
theorem oneEach_distinct {rep : List Event → Event → Reply} {P : Approval → Credential → Bytes → Prop}
    (registered : ∀ evs f now, rep evs (.authenticationResponse f now) = success →
      ∃ n c name pre e k, Submits app f n c name ∧ Occurs evs pre e ∧
        RegistersBy rep app pre e c.rawId name k)
    (once : ∀ evs pre pre' e e' id name name' k k', Occurs evs pre e →
      RegistersBy rep app pre e id name k → Occurs evs pre' e' →
      RegistersBy rep app pre' e' id name' k' → pre = pre' ∧ e = e' ∧ name = name' ∧ k = k')
    (distinct : ∀ evs pre f f' t t' n n' c c' name name' a ch ch', Occurs evs pre (.authenticationResponse f t) →
      rep pre (.authenticationResponse f t) = success → Submits app f n c name →
      rep evs (.authenticationResponse f' t') = success → Submits app f' n' c' name' → c.rawId = c'.rawId →
      P a c ch → ¬ P a c' ch')
    {evs pre : List Event} {e : Event} {id : Bytes} {name : String} {k : CPK} {acts : Approval → Prop}
    (approved : ∀ evs' f now n c name, evs' ++ [.authenticationResponse f now] <+: evs →
      Occurs evs' pre e → c.rawId = id →
      rep evs' (.authenticationResponse f now) = success → Submits app f n c name →
      ∃ a ch, acts a ∧ P a c ch)
    (ho : Occurs evs pre e) (hr : RegistersBy rep app pre e id name k) :
    ∃ approval : Nat → Option Approval,
      (∀ i c, LoginNumber rep app evs c i → c.rawId = id → ∃ a ch, approval i = some a ∧ acts a ∧ P a c ch) ∧
      ∀ i j c c', LoginNumber rep app evs c i → c.rawId = id → LoginNumber rep app evs c' j →
        c'.rawId = id → approval i = approval j → i = j := by
  classical
  have key : ∀ i, (∃ c, LoginNumber rep app evs c i ∧ c.rawId = id) → ∃ a, acts a ∧
      ∃ c ch, LoginNumber rep app evs c i ∧ c.rawId = id ∧ P a c ch := by
    rintro i ⟨c, hi, rfl⟩
    have hi' := hi
    obtain ⟨f, t, n, name', h1, h2, h3⟩ := hi
    have hsplit := take_split h1
    have ho' : Occurs (evs.take i) pre e := by
      obtain ⟨_, _, _, pre', e', k', g1, g2, g3⟩ := registered _ _ _ h2
      obtain ⟨rfl, rfl, rfl⟩ := submits_unique h3 g1
      have g4 : Occurs evs pre' e' := by
        obtain ⟨post, hp⟩ := g2
        refine ⟨post ++ evs.drop i, ?_⟩
        calc evs = evs.take i ++ evs.drop i := (List.take_append_drop i evs).symm
          _ = _ := by rw [hp]; simp
      obtain ⟨rfl, rfl, -, -⟩ := once _ _ _ _ _ _ _ _ _ _ ho hr g4 g3
      exact g2
    obtain ⟨a, ch, ha, hap⟩ := approved (evs.take i) f t n c name'
      ⟨evs.drop (i + 1), by rw [List.append_assoc, List.singleton_append, ← hsplit]⟩ ho' rfl h2 h3
    exact ⟨a, ha, c, ch, hi', rfl, hap⟩
  have lt : ∀ i j hi hj, i < j → (key i hi).choose ≠ (key j hj).choose := by
    intro i j hi hj hij he
    obtain ⟨-, c, ch, ⟨f, t, n, name1, a1, a2, a3⟩, a4, a5⟩ := (key i hi).choose_spec
    obtain ⟨-, c', ch', ⟨f', t', n', name2, b1, b2, b3⟩, b4, b5⟩ := (key j hj).choose_spec
    obtain ⟨mid, hmid⟩ := take_split_lt a1 hij
    exact distinct _ _ _ _ _ _ _ _ _ _ _ _ _ _ _ ⟨mid, hmid⟩ a2 a3 b2 b3 (a4.trans b4.symm) a5 (he ▸ b5)
  refine ⟨fun i => if hi : ∃ c, LoginNumber rep app evs c i ∧ c.rawId = id then some (key i hi).choose
    else none, ?_, ?_⟩
  · intro i c hi hid
    have hi' : ∃ c, LoginNumber rep app evs c i ∧ c.rawId = id := ⟨c, hi, hid⟩
    obtain ⟨h1, c', ch, h2, -, h3⟩ := (key i hi').choose_spec
    obtain rfl := loginNumber_unique hi h2
    exact ⟨_, ch, dif_pos hi', h1, h3⟩
  · intro i j c c' hi hid hj hid' he
    have hi' : ∃ c, LoginNumber rep app evs c i ∧ c.rawId = id := ⟨c, hi, hid⟩
    have hj' : ∃ c, LoginNumber rep app evs c j ∧ c.rawId = id := ⟨c', hj, hid'⟩
    simp only [dif_pos hi', dif_pos hj', Option.some.injEq] at he
    rcases Nat.lt_trichotomy i j with h | h | h
    · exact absurd he (lt i j hi' hj' h)
    · exact h
    · exact absurd he.symm (lt j i hj' hi' h)

theorem oneEach_by {rep : List Event → Event → Reply} {P : Approval → Credential → Bytes → Prop}
    (hP : ∀ a c ch, P a c ch → ∃ sig handle, c.response = .assertion a.cdj a.raw sig handle)
    (registered : ∀ evs f now, rep evs (.authenticationResponse f now) = success →
      ∃ n c name pre e k, Submits app f n c name ∧ Occurs evs pre e ∧
        RegistersBy rep app pre e c.rawId name k)
    (once : ∀ evs pre pre' e e' id name name' k k', Occurs evs pre e →
      RegistersBy rep app pre e id name k → Occurs evs pre' e' →
      RegistersBy rep app pre' e' id name' k' → pre = pre' ∧ e = e' ∧ name = name' ∧ k = k')
    (increasing : ∀ evs pre e e' id m m', Occurs evs pre e → AuthenticatesBy rep app pre e id m →
      AuthenticatesBy rep app evs e' id m' → m < m')
    (counts : ∀ evs f now, rep evs (.authenticationResponse f now) = success →
      ∃ n c name m, Submits app f n c name ∧ HasCounter c m)
    {evs pre : List Event} {e : Event} {id : Bytes} {name : String} {k : CPK} {acts : Approval → Prop}
    (approved : ∀ evs' f now n c name, evs' ++ [.authenticationResponse f now] <+: evs →
      Occurs evs' pre e → c.rawId = id →
      rep evs' (.authenticationResponse f now) = success → Submits app f n c name →
      ∃ a ch, acts a ∧ P a c ch)
    (ho : Occurs evs pre e) (hr : RegistersBy rep app pre e id name k) :
    ∃ approval : Nat → Option Approval,
      (∀ i c, LoginNumber rep app evs c i → c.rawId = id → ∃ a ch, approval i = some a ∧ acts a ∧ P a c ch) ∧
      ∀ i j c c', LoginNumber rep app evs c i → c.rawId = id → LoginNumber rep app evs c' j →
        c'.rawId = id → approval i = approval j → i = j := by
  refine oneEach_distinct registered once ?_ approved ho hr
  intro evs pre f f' t t' n n' c c' name1 name2 a ch ch' ho a2 a3 b2 b3 hid a5 b5
  obtain ⟨_, _, _, x, u1, hx⟩ := counts _ _ _ a2
  obtain ⟨-, rfl, -⟩ := submits_unique a3 u1
  obtain ⟨_, _, _, y, u2, hy⟩ := counts _ _ _ b2
  obtain ⟨-, rfl, -⟩ := submits_unique b3 u2
  have hxy : x < y := increasing _ _ _ _ _ x y ho
    ⟨f, t, n, _, name1, rfl, a2, a3, hid, hx⟩ ⟨f', t', n', _, name2, rfl, b2, b3, rfl, hy⟩
  obtain ⟨_, _, _, _, x1, x2⟩ := hx
  obtain ⟨_, _, _, _, y1, y2⟩ := hy
  obtain ⟨_, _, a6⟩ := hP _ _ _ a5
  obtain ⟨_, _, b6⟩ := hP _ _ _ b5
  rw [x1] at a6
  rw [y1] at b6
  cases a6
  cases b6
  rw [bigEndian_iff] at x2 y2
  omega

theorem oneEach_of {rep : List Event → Event → Reply}
    (registered : ∀ evs f now, rep evs (.authenticationResponse f now) = success →
      ∃ n c name pre e k, Submits app f n c name ∧ Occurs evs pre e ∧
        RegistersBy rep app pre e c.rawId name k)
    (once : ∀ evs pre pre' e e' id name name' k k', Occurs evs pre e →
      RegistersBy rep app pre e id name k → Occurs evs pre' e' →
      RegistersBy rep app pre' e' id name' k' → pre = pre' ∧ e = e' ∧ name = name' ∧ k = k')
    (increasing : ∀ evs pre e e' id m m', Occurs evs pre e → AuthenticatesBy rep app pre e id m →
      AuthenticatesBy rep app evs e' id m' → m < m')
    (counts : ∀ evs f now, rep evs (.authenticationResponse f now) = success →
      ∃ n c name m, Submits app f n c name ∧ HasCounter c m)
    {evs pre : List Event} {e : Event} {id : Bytes} {name : String} {k : CPK} {acts : Approval → Prop}
    (approved : ∀ evs' f now n c name, evs' ++ [.authenticationResponse f now] <+: evs →
      Occurs evs' pre e → c.rawId = id →
      rep evs' (.authenticationResponse f now) = success → Submits app f n c name →
      ∃ a ch, acts a ∧ Approves app.env a c ch)
    (ho : Occurs evs pre e) (hr : RegistersBy rep app pre e id name k) :
    OneEach app.env acts (LoginNumber rep app evs) id :=
  oneEach_by (fun _ _ _ h => h.response) registered once increasing counts approved ho hr

/-- A login that succeeds has a counter. -/
theorem login_counter {f : Form} {t : Int} {db : Db}
    (hs : (authenticationResponse app f t db).1 = success) :
    ∃ n c name m, Submits app f n c name ∧ HasCounter c m := by
  unfold authenticationResponse at hs
  split at hs
  · rename_i r hr
    exact absurd hs (readResponse_ne_success hr)
  · rename_i c ch u hr
    obtain ⟨n, name, hf, -⟩ := readResponse_ok_iff.mp hr
    have hh : handleAssertion app.env (registrar app.env) (assertionArgs c ch u) db = (.ok (), _) :=
      Prod.ext (conclude_success.mp hs) rfl
    obtain ⟨-, -, cd, t', u', rp', ad, h3, h4, -⟩ := assertion_accepts.mp hh
    exact ⟨n, c, name, _, hf, assertionOk_counter h4⟩

/-- C84: whatever checks refuse requests, and by whatever they remember, the guarantees of the
application hold of what it answers behind them. -/
theorem C84_guarantees (codec : CodecLaws app.env) (json : JsonLaw app.env) (gs : List Guard) :
    Guarantees (guardedReply app gs) app := by
  have registered : ∀ evs f now, guardedReply app gs evs (.authenticationResponse f now) = success →
      ∃ n c name pre e k cdj raw sig handle, Submits app f n c name ∧ Occurs evs pre e ∧
        RegistersBy (guardedReply app gs) app pre e c.rawId name k ∧
        c.response = .assertion cdj raw sig handle ∧
        SignedBy app.env k sig (raw ++ app.env.sha256 cdj) := by
    intro evs f now h
    obtain ⟨n, c, name, pre, e, k, cdj, raw, sig, hd, h1, h2, h3, h4, h5⟩ :=
      C49_login codec (guardedReply_success.mp h).2
    obtain ⟨pre', g1, rfl, g2⟩ := servedOf_occurs h2
    exact ⟨n, c, name, pre', e, k, cdj, raw, sig, hd, h1, g1, registersBy_guarded.mpr ⟨g2, h3⟩, h4, h5⟩
  have once : ∀ evs pre pre' e e' id name name' k k', Occurs evs pre e →
      RegistersBy (guardedReply app gs) app pre e id name k → Occurs evs pre' e' →
      RegistersBy (guardedReply app gs) app pre' e' id name' k' →
      pre = pre' ∧ e = e' ∧ name = name' ∧ k = k' := by
    intro evs pre pre' e e' id name name' k k' ho hr ho' hr'
    obtain ⟨hp, hr⟩ := registersBy_guarded.mp hr
    obtain ⟨hp', hr'⟩ := registersBy_guarded.mp hr'
    obtain ⟨h1, h2, h3, h4⟩ := C49_registered_once (occurs_servedOf ho hp) hr (occurs_servedOf ho' hp') hr'
    refine ⟨?_, h2, h3, h4⟩
    -- if one were before the other, it would be served one request earlier
    have key : ∀ {p q : List Event} {x y : Event}, Occurs evs p x → Occurs evs q y →
        Passes app gs p x → servedOf app gs p = servedOf app gs q → ¬ p.length < q.length := by
      intro p q x y ⟨s, hs⟩ ⟨s', hs'⟩ hpx heq hlt
      rw [hs] at hs'
      rcases List.append_eq_append_iff.mp hs' with ⟨r, h1, h2⟩ | ⟨r, h1, h2⟩
      · cases r with
        | nil =>
          rw [h1, List.append_nil] at hlt
          omega
        | cons a r =>
          simp only [List.cons_append, List.cons.injEq] at h2
          obtain ⟨rfl, -⟩ := h2
          obtain ⟨more, hm⟩ := occurs_servedOf (evs := q) ⟨r, h1⟩ hpx
          rw [heq] at hm
          have := congrArg List.length hm
          simp at this
      · rw [h1, List.length_append] at hlt
        omega
    have hl : pre.length = pre'.length := by
      have a := key ho ho' hp h1
      have b := key ho' ho hp' h1.symm
      omega
    obtain ⟨s, hs⟩ := ho
    obtain ⟨s', hs'⟩ := ho'
    rw [hs] at hs'
    exact (List.append_inj hs' hl).1
  have increasing : ∀ evs pre e e' id m m', Occurs evs pre e →
      AuthenticatesBy (guardedReply app gs) app pre e id m →
      AuthenticatesBy (guardedReply app gs) app evs e' id m' → m < m' := by
    intro evs pre e e' id m m' ho h h'
    obtain ⟨hp, f, t, n, c, name, rfl, hs, hf, hid, hc⟩ := authenticatesBy_guarded.mp h
    obtain ⟨hp', f', t', n', c', name', rfl, hs', hf', hid', hc'⟩ := authenticatesBy_guarded.mp h'
    obtain ⟨mid, hmid⟩ := occurs_servedOf ho hp
    rw [hmid] at hs'
    obtain ⟨a, b, ha, hb, hab⟩ := C47_flask_counters hs hf hs' hf' (hid.trans hid'.symm)
    have := hasCounter_unique hc ha
    have := hasCounter_unique hc' hb
    omega
  have approved : ∀ evs pre e f now n c name name' k acts,
      Holder app.env k (Sent app (evs ++ [.authenticationResponse f now])) acts →
      Occurs evs pre e → RegistersBy (guardedReply app gs) app pre e c.rawId name' k →
      guardedReply app gs evs (.authenticationResponse f now) = success → Submits app f n c name →
      name' = name ∧ ∃ a pre' e' ch t' name'', acts a ∧ Approves app.env a c ch ∧
        Occurs evs pre' e' ∧ IssuesBy (guardedReply app gs) pre' e' n ch t' name'' ∧
        now - t' ≤ 60000 := by
    intro evs pre e f now n c name name' k acts holder ho hr h hf
    obtain ⟨hp, hr⟩ := registersBy_guarded.mp hr
    obtain ⟨h1, a, pre', e', ch, t', name'', h2, h3, h4, h5, h6⟩ :=
      C65_login codec json (holder_mono holder fun _ _ _ => sent_servedOf) (occurs_servedOf ho hp) hr
        (guardedReply_success.mp h).2 hf
    obtain ⟨q, g1, rfl, g2⟩ := servedOf_occurs h4
    exact ⟨h1, a, q, e', ch, t', name'', h2, h3, g1, issuesBy_guarded.mpr ⟨g2, h5⟩, h6⟩
  refine ⟨?_, registered, once, increasing, approved, ?_⟩
  · intro evs e t n c name h
    obtain ⟨pre, e', ch, t', name', d, text, h1, h2, h3⟩ := C50_fresh_challenge (succeedsBy_guarded.mp h).2
    obtain ⟨q, g1, rfl, g2⟩ := servedOf_occurs h1
    exact ⟨q, e', ch, t', name', d, text, g1, issuesBy_guarded.mpr ⟨g2, h2⟩, h3⟩
  · intro evs pre e id name k acts holder ho hr
    refine oneEach_of ?_ once increasing ?_ ?_ ho hr
    · intro evs f now h
      obtain ⟨n, c, name, pre, e, k, -, -, -, -, h1, h2, h3, -⟩ := registered evs f now h
      exact ⟨n, c, name, pre, e, k, h1, h2, h3⟩
    · intro evs f now h
      exact login_counter (guardedReply_success.mp h).2
    · rintro evs' f now n c name' ⟨post, hpre⟩ ho' rfl h hf
      have sub : ∀ cdj raw sig, Sent app (evs' ++ [.authenticationResponse f now]) cdj raw sig →
          Sent app evs cdj raw sig := by
        rintro cdj raw sig ⟨f', t', n', c', name'', hd, hm, hs⟩
        exact ⟨f', t', n', c', name'', hd, by rw [← hpre]; exact List.mem_append_left _ hm, hs⟩
      obtain ⟨-, a, -, -, ch, -, -, h1, h2, -⟩ := approved evs' pre e f now n c name' name k acts
        (holder_mono holder sub) ho' hr h hf
      exact ⟨a, ch, h1, h2⟩

/-! ## What each check adds, whatever others there are -/

theorem passes_guard {g : Guard} (hg : g ∈ gs) {evs : List Event} {e : Event}
    (h : Passes app gs evs e) : g (guardedRun app gs evs).1 (run app (servedOf app gs evs)) e = none := by
  rw [← guardedRun_db]
  exact List.findSome?_eq_none_iff.mp h g hg

theorem submission_iff {f : Form} {n : Nat} {c : Credential} {name : String} :
    submission app f = some (n, c, name) ↔ Submits app f n c name := by
  constructor
  · intro h
    unfold submission at h
    split at h
    · rename_i cid c' name' hp
      obtain ⟨h1, h2, text, d, h3, h4, h5⟩ := parseForm_ok_iff.mp hp
      obtain ⟨n', h6, h7⟩ := Option.map_eq_some_iff.mp h
      cases h7
      exact ⟨cid, text, d, h1, h6, h3, h4, h5, h2⟩
    · cases h
  · rintro ⟨cid, text, d, h1, h6, h3, h4, h5, h2⟩
    rw [submission, parseForm_ok_iff.mpr ⟨h1, h2, text, d, h3, h4, h5⟩]
    simp [h6]

theorem attestedData_iff {c : Credential} {acd : AttestedCredentialData} {m : Nat} :
    attestedData app.env c = some (acd, m) ↔ ∃ cdj ob o raw, c.response = .attestation cdj ob ∧
      AttObjOf app.env ob o raw ∧ o.authData.attested = some acd ∧ o.authData.signCount = m := by
  unfold attestedData
  cases hc : c.response with
  | assertion cdj raw sig hd => simp
  | attestation cdj ob =>
    cases hp : parseAttestationObject app.env ob with
    | error e =>
      simp only [hp, reduceCtorEq, false_iff]
      rintro ⟨cdj', ob', o, raw, h1, h2, -⟩
      cases h1
      rw [← parseAttestationObject_ok_iff, hp] at h2
      cases h2
    | ok x =>
      obtain ⟨o, raw⟩ := x
      simp only [hp, Option.map_eq_some_iff, Prod.mk.injEq]
      constructor
      · rintro ⟨_, h1, rfl, rfl⟩
        exact ⟨cdj, ob, o, raw, rfl, parseAttestationObject_ok_iff.mp hp, h1, rfl⟩
      · rintro ⟨cdj', ob', o', raw', h1, h2, h3, h4⟩
        cases h1
        rw [← parseAttestationObject_ok_iff, hp] at h2
        cases h2
        exact ⟨acd, h3, rfl, h4⟩

theorem succeeded_iff {r : Reply} : r.succeeded = true ↔ r = success := by
  cases r <;> simp [Reply.succeeded, success]

/-- C84: with `unused`, challenges are single use. -/
theorem C84_single_use (hg : unused app ∈ gs) : SingleUse (guardedReply app gs) app := by
  rintro pre e mid e' t t' n c c' name name' ⟨hs, f, he, hf⟩ ⟨hs', f', he', hf'⟩
  obtain ⟨hp, -⟩ := guardedReply_success.mp hs
  obtain ⟨hp', -⟩ := guardedReply_success.mp hs'
  have h := passes_guard hg hp'
  have hform : formIn e = some f := by rcases he with rfl | rfl <;> rfl
  have hform' : formIn e' = some f' := by rcases he' with rfl | rfl <;> rfl
  simp only [unused, hform', Option.bind_some, submission_iff.mpr hf', ite_eq_right_iff, reduceCtorEq,
    imp_false, Bool.not_eq_true, List.any_eq_false] at h
  have := h (e, success) (log_mem.mpr ⟨pre, ⟨mid, rfl⟩, hp, hs⟩)
  simp [hform, submission_iff.mpr hf, succeeded_iff.mpr] at this

/-- C84: with `ownChallenge`, challenges are good for the user they were issued to. -/
theorem C84_user_bound (hg : ownChallenge app ∈ gs) : UserBound (guardedReply app gs) app := by
  intro evs e t n c name pre e' ch t' name' h ho hi
  obtain ⟨hp, hs⟩ := succeedsBy_guarded.mp h
  obtain ⟨hp', hi⟩ := issuesBy_guarded.mp hi
  have ho := occurs_servedOf ho hp'
  obtain ⟨v, hv1, hv2, hv3⟩ := issued_row ho hi
  have inv := inv_run app (servedOf app gs evs)
  obtain ⟨hs, f, he, hf⟩ := hs
  have hform : formIn e = some f := by rcases he with rfl | rfl <;> rfl
  obtain ⟨att, c', row, u, hread⟩ : ∃ att c' row u,
      readResponse app att f t (run app (servedOf app gs evs)) = .ok (c', row, u) := by
    rcases he with rfl | rfl
    · have hs : (registrationResponse app f t _).1 = success := hs
      unfold registrationResponse at hs
      split at hs
      · rename_i r hr
        exact absurd hs (readResponse_ne_success hr)
      · rename_i c' row u hr
        exact ⟨_, _, _, _, hr⟩
    · have hs : (authenticationResponse app f t _).1 = success := hs
      unfold authenticationResponse at hs
      split at hs
      · rename_i r hr
        exact absurd hs (readResponse_ne_success hr)
      · rename_i c' row u hr
        exact ⟨_, _, _, _, hr⟩
  obtain ⟨n', name'', g1, -, g2, g3, -⟩ := readResponse_ok_iff.mp hread
  obtain ⟨rfl, rfl, rfl⟩ := submits_unique hf g1
  have hpass := passes_guard hg hp
  simp only [ownChallenge, hform, Option.bind_some, submission_iff.mpr hf, g2, g3, ite_eq_left_iff,
    reduceCtorEq, imp_false, not_not] at hpass
  obtain ⟨h1, h2⟩ := challenge_some g2
  obtain ⟨h3, h4⟩ := userNamed_some g3
  have hrow : row = ⟨n, ch, t', v.id⟩ := by
    have := inv.find_challenge hv3
    rw [g2] at this
    exact Option.some.inj this
  subst hrow
  rw [← hv2, ← h4]
  exact congrArg User.username (inv.userId_unique hv1 h3 hpass)

/-- C84: with `unowned`, nobody but the owner logs in under a name. -/
theorem C84_owner_only (codec : CodecLaws app.env) (json : JsonLaw app.env) (hg : unowned app ∈ gs) :
    OwnerOnly (guardedReply app gs) app := by
  intro evs pre e id name k acts f now n c ho hr _ holder h hf
  obtain ⟨-, h⟩ := guardedReply_success.mp h
  obtain ⟨hp, hr⟩ := registersBy_guarded.mp hr
  have ho := occurs_servedOf ho hp
  refine C66_owner_only_partial codec json (k := k) (holder_mono holder fun _ _ _ => sent_servedOf) ?_ h hf
  intro pre' e' id' k' ho' hr'
  -- of two registrations under the name, the later is refused
  have key : ∀ {p q : List Event} {x y : Event} {i j : Bytes} {l m : CPK},
      Occurs (servedOf app gs evs) p x → Occurs (servedOf app gs evs) q y →
      Registers app p x i name l → Registers app q y j name m → ¬ p.length < q.length := by
    intro p q x y i j l m hp hq hx hy hlt
    obtain ⟨q', -, rfl, hq2⟩ := servedOf_occurs hq
    obtain ⟨s, hs⟩ := hp
    obtain ⟨s', hs'⟩ := hq
    rw [hs] at hs'
    have : Occurs (servedOf app gs q') p x := by
      rcases List.append_eq_append_iff.mp hs' with ⟨r, h1, h2⟩ | ⟨r, h1, h2⟩
      · cases r with
        | nil =>
          rw [h1, List.append_nil] at hlt
          omega
        | cons a r =>
          simp only [List.cons_append, List.cons.injEq] at h2
          obtain ⟨rfl, -⟩ := h2
          exact ⟨r, h1⟩
      · rw [h1, List.length_append] at hlt
        omega
    have hpass := passes_guard hg hq2
    simp [unowned, taken_registered this hx hy] at hpass
  have hl : pre'.length = (servedOf app gs pre).length := by
    have h1 := key ho ho' hr hr'
    have h2 := key ho' ho hr' hr
    omega
  obtain ⟨s, hs⟩ := ho
  obtain ⟨s', hs'⟩ := ho'
  rw [hs] at hs'
  obtain ⟨h1, h2⟩ := List.append_inj hs' hl.symm
  rw [List.cons.injEq] at h2
  obtain ⟨rfl, -⟩ := h2
  rw [← h1] at hr'
  exact (registers_unique hr hr').2.2.symm

theorem passes_registering {good : Credential → AttestedCredentialData → Bool} {m : String}
    (hg : registering app good m ∈ gs) {evs : List Event} {f : Form} {t : Int}
    (hp : Passes app gs evs (.registrationResponse f t)) {n : Nat} {c : Credential} {name : String}
    (hf : Submits app f n c name) {cdj ob raw : Bytes} {o : AttestationObject}
    {acd : AttestedCredentialData} (hc : c.response = .attestation cdj ob)
    (ho : AttObjOf app.env ob o raw) (ha : o.authData.attested = some acd) : good c acd = true := by
  have h := passes_guard hg hp
  simpa only [registering, submission_iff.mpr hf, Option.bind_some,
    attestedData_iff.mpr ⟨cdj, ob, o, raw, hc, ho, ha, rfl⟩, ite_eq_left_iff, Bool.not_eq_true,
    reduceCtorEq, imp_false, Bool.not_eq_false] using h

/-- C84: with `attestedId`, the id of a registered credential is the attested one. -/
theorem C84_attested_id (hg : attestedId app ∈ gs) {evs : List Event} {f : Form} {t : Int} {n : Nat}
    {c : Credential} {name : String} {cdj ob raw : Bytes} {o : AttestationObject}
    {acd : AttestedCredentialData} (h : guardedReply app gs evs (.registrationResponse f t) = success)
    (hf : Submits app f n c name) (hc : c.response = .attestation cdj ob)
    (ho : AttObjOf app.env ob o raw) (ha : o.authData.attested = some acd) :
    acd.credentialId = c.rawId := by
  simpa using passes_registering hg (guardedReply_success.mp h).1 hf hc ho ha

/-- C84: with `goodKey`, keys are for ES256 and credential keys of WebAuthn. -/
theorem C84_good_key (hg : goodKey app ∈ gs) {evs : List Event} {e : Event} {id : Bytes}
    {name : String} {k : CPK} (h : RegistersBy (guardedReply app gs) app evs e id name k) :
    KeyAlg k .ES256 ∧ Profile k := by
  obtain ⟨f, t, n, c, cdj, ob, o, raw, acd, rfl, h1, h2, h3, h4, h5, h6, h7⟩ := h
  have := passes_registering hg (guardedReply_success.mp h1).1 h2 h4 h5 h6
  simp only [h7, Option.all_some, Bool.and_eq_true] at this
  obtain ⟨g1, g2⟩ := this
  refine ⟨?_, (webAuthnKey_iff (attests_consistent ⟨cdj, ob, o, raw, acd, h4, h5, h6, h7⟩)).mp g2⟩
  obtain ⟨a, ha, hk⟩ := algIn_iff.mp g1
  rw [List.mem_singleton] at ha
  exact ha ▸ hk

/-- C84: with `longId`, credential ids have at least 16 bytes. -/
theorem C84_long_id (hg : longId app ∈ gs) {evs : List Event} {e : Event} {id : Bytes}
    {name : String} {k : CPK} (h : RegistersBy (guardedReply app gs) app evs e id name k) :
    16 ≤ id.length := by
  obtain ⟨f, t, n, c, cdj, ob, o, raw, acd, rfl, h1, h2, rfl, h4, h5, h6, h7⟩ := h
  simpa using passes_registering hg (guardedReply_success.mp h1).1 h2 h4 h5 h6

/-- The counter that the check sees is that of the response. -/
theorem assertedCount_of {c : Credential} {cdj raw sig : Bytes} {hd : Option Bytes} {ad : AuthData}
    (hc : c.response = .assertion cdj raw sig hd) (ha : AuthDataOf app.env raw ad) :
    assertedCount app.env c = some ad.signCount := by
  simp [assertedCount, hc, parseAuthenticatorData_ok_iff.mpr ha]

theorem login_count {f : Form} {t : Int} {db : Db} {n k : Nat} {c : Credential} {name : String}
    (hs : (authenticationResponse app f t db).1 = success) (hf : Submits app f n c name)
    (hc : HasCounter c k) : assertedCount app.env c = some k := by
  unfold authenticationResponse at hs
  split at hs
  · rename_i r hr
    exact absurd hs (readResponse_ne_success hr)
  · rename_i c' ch u hr
    obtain ⟨n', name', hf', -⟩ := readResponse_ok_iff.mp hr
    obtain ⟨-, rfl, -⟩ := submits_unique hf hf'
    have hh : handleAssertion app.env (registrar app.env) (assertionArgs c ch u) db = (.ok (), _) :=
      Prod.ext (conclude_success.mp hs) rfl
    obtain ⟨-, -, cd, t', u', rp', ad, h3, h4, -⟩ := assertion_accepts.mp hh
    rw [hasCounter_unique hc (assertionOk_counter h4)]
    obtain ⟨cdj, raw, sig, hd, h5, -, -, -, h6, -⟩ := h4
    exact assertedCount_of h5 h6.1

/-- A registration that succeeds attests a credential. -/
theorem registration_attested {f : Form} {t : Int} {db : Db} {n : Nat} {c : Credential} {name : String}
    (hs : (registrationResponse app f t db).1 = success) (hf : Submits app f n c name) :
    ∃ cdj ob o raw acd, c.response = .attestation cdj ob ∧ AttObjOf app.env ob o raw ∧
      o.authData.attested = some acd := by
  unfold registrationResponse at hs
  split at hs
  · rename_i r hr
    exact absurd hs (readResponse_ne_success hr)
  · rename_i c' ch u hr
    obtain ⟨n', name', hf', -⟩ := readResponse_ok_iff.mp hr
    obtain ⟨-, rfl, -⟩ := submits_unique hf hf'
    have hh : handleAttestation app.env (registrar app.env) (attestationArgs c ch u) db = (.ok (), _) :=
      Prod.ext (conclude_success.mp hs) rfl
    obtain ⟨-, o, raw, ⟨cdj, ob, h1, -, h2, -, h3⟩, -⟩ := attestation_accepts.mp hh
    obtain ⟨acd, h3⟩ := Option.ne_none_iff_exists'.mp h3
    exact ⟨cdj, ob, o, raw, acd, h1, h2, h3⟩

theorem hasInitialCounter_of {c : Credential} {cdj ob raw : Bytes} {o : AttestationObject}
    (hc : c.response = .attestation cdj ob) (ho : AttObjOf app.env ob o raw) :
    HasInitialCounter app.env c o.authData.signCount := by
  obtain ⟨d, r, t, g1, g2, g3, -⟩ := id ho
  exact ⟨cdj, ob, o, raw, hc, ho, (authDataOf_head g3).2.2.2⟩

/-- C84: with `aboveInitial`, a login has a greater counter than the registration. -/
theorem C84_counter_above (hg : aboveInitial app ∈ gs) : CounterAbove (guardedReply app gs) app := by
  rintro evs pre e e' id m k ho ⟨f, t, n, c, name, rfl, hs, hf, rfl, hc⟩
    ⟨f', t', n', c', name', rfl, hs', hf', hid, hc'⟩ hm
  obtain ⟨hp, hb⟩ := guardedReply_success.mp hs
  obtain ⟨hp', hb'⟩ := guardedReply_success.mp hs'
  have h := passes_guard hg hp'
  simp only [aboveInitial, submission_iff.mpr hf', Option.bind_some, login_count hb' hf' hc',
    ite_eq_right_iff, reduceCtorEq, imp_false, Bool.not_eq_true, List.any_eq_false] at h
  have := h _ (log_mem.mpr ⟨pre, ho, hp, hs⟩)
  obtain ⟨cdj, ob, o, raw, acd, h1, h2, h3⟩ := registration_attested hb hf
  have e1 : o.authData.signCount = m := hasInitialCounter_unique (hasInitialCounter_of h1 h2) hc
  simp only [succeeded_iff.mpr, submission_iff.mpr hf, Option.any_some, hid, BEq.rfl, Bool.true_and] at this
  rw [attestedData_iff.mpr ⟨cdj, ob, o, raw, h1, h2, h3, e1⟩] at this
  simpa [hm] using this

/-- C84: with all the checks, everything that is false of the application holds. -/
theorem C84_strong (codec : CodecLaws app.env) (json : JsonLaw app.env)
    (hgs : ∀ g ∈ allGuards app, g ∈ gs) : Strong (guardedReply app gs) app where
  singleUse := C84_single_use (hgs _ (by simp [allGuards]))
  userBound := C84_user_bound (hgs _ (by simp [allGuards]))
  ownerOnly := C84_owner_only codec json (hgs _ (by simp [allGuards]))
  attestedId := fun _ _ _ _ _ _ _ _ _ _ _ h1 h2 h3 h4 h5 =>
    C84_attested_id (hgs _ (by simp [allGuards])) h1 h2 h3 h4 h5
  requested := fun _ _ _ _ _ h => (C84_good_key (hgs _ (by simp [allGuards])) h).1
  profile := fun _ _ _ _ _ h => (C84_good_key (hgs _ (by simp [allGuards])) h).2
  longId := fun _ _ _ _ _ h => C84_long_id (hgs _ (by simp [allGuards])) h
  above := C84_counter_above (hgs _ (by simp [allGuards]))

/-! ## Honest users are served -/

theorem unused_none {evs : List Event} {e : Event} {f : Form} {n : Nat} {c : Credential} {name : String}
    (he : formIn e = some f) (hf : Submits app f n c name)
    (hunused : ∀ pre e t c name, Occurs evs pre e →
      ¬ SucceedsBy (guardedReply app gs) app pre e t n c name) (db : Db) :
    unused app (guardedRun app gs evs).1 db e = none := by
  simp only [unused, he, Option.bind_some, submission_iff.mpr hf, ite_eq_right_iff, reduceCtorEq,
    imp_false, Bool.not_eq_true, List.any_eq_false]
  rintro ⟨e', r⟩ hmem
  obtain ⟨pre, ho, hp, hr⟩ := log_mem.mp hmem
  rw [← Bool.not_eq_true]
  simp only [Bool.and_eq_true, succeeded_iff, Option.any_eq_true, beq_iff_eq, Option.bind_eq_some_iff,
    Prod.exists]
  rintro ⟨rfl, n', c', name', ⟨f', hf1, hf2⟩, rfl⟩
  have hsub := submission_iff.mp hf2
  cases e' with
  | registrationResponse f1 t =>
    cases hf1
    exact hunused pre _ t c' name' ho ⟨hr, _, Or.inl rfl, hsub⟩
  | authenticationResponse f1 t =>
    cases hf1
    exact hunused pre _ t c' name' ho ⟨hr, _, Or.inr rfl, hsub⟩
  | registrationRequest _ _ _ _ => cases hf1
  | authenticationRequest _ _ _ => cases hf1

theorem ownChallenge_none {evs pre : List Event} {e e' : Event} {f : Form} {n : Nat} {c : Credential}
    {name : String} {ch : Bytes} {t : Int} (he : formIn e = some f) (hf : Submits app f n c name)
    (ho : Occurs evs pre e') (hi : Issues app pre e' n ch t name) (log : ServedLog) :
    ownChallenge app log (run app evs) e = none := by
  obtain ⟨v, hv1, hv2, hv3⟩ := issued_row ho hi
  have inv := inv_run app evs
  have h1 : (run app evs).challenge (some n) = some ⟨n, ch, t, v.id⟩ := inv.find_challenge hv3
  simp only [ownChallenge, he, Option.bind_some, submission_iff.mpr hf, h1]
  cases hu : (run app evs).userNamed name with
  | none => rfl
  | some u =>
    obtain ⟨h3, h4⟩ := userNamed_some hu
    have : v = u := pairwise_unique inv.names hv1 h3 (hv2.trans h4.symm)
    simp [this]

/-- C84: the application behind all the checks accepts an honest registration, as in C56, with
an unused challenge of the user, a new name, and a key and an id as required. -/
theorem C84_registration (codec : CodecLaws app.env) (json : JsonLaw app.env)
    {evs pre : List Event} {e : Event} {f : Form} {now t : Int} {n : Nat} {ch key : Bytes}
    {name chText : String} {c : Credential} {cdj ob raw : Bytes} {ad : AuthData}
    {acd : AttestedCredentialData} {k : CPK}
    -- the challenge
    (ho : Occurs evs pre e) (hi : IssuesBy (guardedReply app (allGuards app)) pre e n ch t name)
    (ht : now - t ≤ 60000)
    (hunused : ∀ pre e t c name, Occurs evs pre e →
      ¬ SucceedsBy (guardedReply app (allGuards app)) app pre e t n c name)
    -- the form and the response of the browser
    (hf : Submits app f n c name) (hresp : c.response = .attestation cdj ob)
    (hcdj : ClientDataText "webauthn.create" chText "http://localhost:5000" none cdj)
    (hch : Base64UrlText chText ch) (hob : EncodedNoneAttestation app.env raw ob)
    -- the authenticator data
    (had : EncodedAuthData app.env ad raw) (hacd : ad.attested = some acd)
    (hk : acd.credentialPublicKey = some k) (hkey : coseKey app.env k = .ok key)
    (hrp : RpHashOk app.env raw "localhost") (hup : FlagSet raw 0)
    (halg : KeyAlg k .ES256) (hprofile : Profile k)
    (hid : acd.credentialId = c.rawId) (hlong : 16 ≤ c.rawId.length)
    -- the credential id is new, and the name
    (hnew : ∀ pre e name k, Occurs evs pre e →
      ¬ RegistersBy (guardedReply app (allGuards app)) app pre e c.rawId name k)
    (hfirst : ∀ pre e id k, Occurs evs pre e →
      ¬ RegistersBy (guardedReply app (allGuards app)) app pre e id name k) :
    guardedReply app (allGuards app) evs (.registrationResponse f now) = success := by
  obtain ⟨h1, h2⟩ := issuesBy_guarded.mp hi
  have ho1 := occurs_servedOf ho h1
  refine guardedReply_success.mpr ⟨?_, C56_registration codec json ho1 h2 ht hf hresp hcdj
    hch hob had hacd hk hkey hrp hup fun pre e name' k h h' => ?_⟩
  · have hobj : AttObjOf app.env ob ⟨ad, .NONE, .none⟩ raw := by
      obtain ⟨d, g1, g2, g3, g4, g5⟩ := hob
      have := codec.roundTrip g4 g5 []
      rw [List.append_nil] at this
      exact ⟨d, [], [], this, g3, encodedAuthData_of codec had, g1, g2, rfl, rfl⟩
    have hcons := attests_consistent (env := app.env) (c := c) (k := k)
      ⟨cdj, ob, _, raw, acd, hresp, hobj, hacd, hk⟩
    have hdata := attestedData_iff.mpr ⟨cdj, ob, _, raw, hresp, hobj, hacd, rfl⟩
    have hreg : ∀ (good : Credential → AttestedCredentialData → Bool) m log db, good c acd = true →
        registering app good m log db (.registrationResponse f now) = none := by
      intro good m log db hgood
      simp [registering, submission_iff.mpr hf, hdata, hgood]
    have htaken : taken app (.registrationResponse f now) (run app (servedOf app (allGuards app) evs)) =
        false := by
      simp only [taken]
      cases hread : readResponse app true f now (run app (servedOf app (allGuards app) evs)) with
      | error r => rfl
      | ok x =>
        obtain ⟨c', ch', u⟩ := x
        obtain ⟨n', name', e1, -, -, e2, -⟩ := readResponse_ok_iff.mp hread
        obtain ⟨-, -, rfl⟩ := submits_unique hf e1
        obtain ⟨e3, e4⟩ := userNamed_some e2
        simp only [List.any_eq_false, beq_iff_eq]
        intro row hrow hid
        have inv := inv_run app (servedOf app (allGuards app) evs)
        obtain ⟨pre, e, v, k', h3, h4, h5, h6, -⟩ := inv.credentials row hrow
        obtain rfl : v = u := inv.userId_unique h4 e3 (h5.trans hid)
        obtain ⟨pre', h7, rfl, h8⟩ := servedOf_occurs h3
        exact hfirst pre' e _ k' h7 (registersBy_guarded.mpr ⟨h8, e4 ▸ h6⟩)
    refine List.findSome?_eq_none_iff.mpr fun g hg => ?_
    rw [guardedRun_db]
    simp only [allGuards, List.mem_cons, List.not_mem_nil, or_false] at hg
    rcases hg with rfl | rfl | rfl | rfl | rfl | rfl | rfl
    · exact unused_none rfl hf hunused _
    · exact ownChallenge_none rfl hf ho1 h2 _
    · simp [unowned, htaken]
    · exact hreg _ _ _ _ (by simp [hid])
    · refine hreg _ _ _ _ ?_
      simp only [hk, Option.all_some, Bool.and_eq_true]
      exact ⟨algIn_iff.mpr ⟨_, List.mem_singleton_self _, halg⟩, (webAuthnKey_iff hcons).mpr hprofile⟩
    · exact hreg _ _ _ _ (by simpa using hlong)
    · rfl
  · obtain ⟨pre', h3, rfl, h4⟩ := servedOf_occurs h
    exact hnew pre' e name' k h3 (registersBy_guarded.mpr ⟨h4, h'⟩)

/-- C84: the application behind all the checks accepts an honest login, as in C56, with an
unused challenge of the user and a counter above those before it. -/
theorem C84_login (codec : CodecLaws app.env) (json : JsonLaw app.env)
    {evs pre pre' : List Event} {e e' : Event} {f : Form} {now t : Int} {n : Nat} {ch : Bytes}
    {name chText : String} {c : Credential} {cdj raw sig : Bytes} {handle : Option Bytes}
    {ad : AuthData} {k : CPK}
    -- the challenge and the registration
    (ho : Occurs evs pre e) (hi : IssuesBy (guardedReply app (allGuards app)) pre e n ch t name)
    (ht : now - t ≤ 60000)
    (hunused : ∀ pre e t c name, Occurs evs pre e →
      ¬ SucceedsBy (guardedReply app (allGuards app)) app pre e t n c name)
    (ho' : Occurs evs pre' e')
    (hr : RegistersBy (guardedReply app (allGuards app)) app pre' e' c.rawId name k)
    -- the form and the response of the browser
    (hf : Submits app f n c name) (hresp : c.response = .assertion cdj raw sig handle)
    (hcdj : ClientDataText "webauthn.get" chText "http://localhost:5000" none cdj)
    (hch : Base64UrlText chText ch)
    (hhandle : ∀ h, handle = some h →
      ∃ u ∈ (guardedRun app (allGuards app) evs).2.users, u.username = name ∧ u.handle = h)
    -- the authenticator data and its signature
    (had : EncodedAuthData app.env ad raw) (hrp : RpHashOk app.env raw "localhost")
    (hup : FlagSet raw 0) (hsig : SignedBy app.env k sig (raw ++ app.env.sha256 cdj))
    (hcount : ∀ pre e m, Occurs evs pre e →
      AuthenticatesBy (guardedReply app (allGuards app)) app pre e c.rawId m → m < ad.signCount)
    (hinitial : ∀ pre e m, Occurs evs pre e →
      BeginsBy (guardedReply app (allGuards app)) app pre e c.rawId m → m ≠ 0 → m < ad.signCount) :
    guardedReply app (allGuards app) evs (.authenticationResponse f now) = success := by
  obtain ⟨h1, h2⟩ := issuesBy_guarded.mp hi
  have ho1 := occurs_servedOf ho h1
  obtain ⟨h3, h4⟩ := registersBy_guarded.mp hr
  rw [guardedRun_db] at hhandle
  refine guardedReply_success.mpr ⟨?_, C56_authentication codec json ho1 h2 ht
    (occurs_servedOf ho' h3) h4 hf hresp hcdj hch hhandle had hrp hup hsig fun pre e m h h' => ?_⟩
  · refine List.findSome?_eq_none_iff.mpr fun g hg => ?_
    rw [guardedRun_db]
    simp only [allGuards, List.mem_cons, List.not_mem_nil, or_false] at hg
    rcases hg with rfl | rfl | rfl | rfl | rfl | rfl | rfl
    · exact unused_none rfl hf hunused _
    · exact ownChallenge_none rfl hf ho1 h2 _
    · rfl
    · rfl
    · rfl
    · rfl
    · simp only [aboveInitial, submission_iff.mpr hf, Option.bind_some,
        assertedCount_of hresp (encodedAuthData_of codec had), ite_eq_right_iff, reduceCtorEq, imp_false,
        Bool.not_eq_true, List.any_eq_false]
      rintro ⟨e', r⟩ hmem
      obtain ⟨pre, ho, hp, hr⟩ := log_mem.mp hmem
      cases e' with
      | registrationResponse f1 t1 =>
        rw [← Bool.not_eq_true]
        simp only [Bool.and_eq_true, succeeded_iff, Option.any_eq_true, beq_iff_eq, Prod.exists,
          bne_iff_ne, decide_eq_true_eq]
        rintro ⟨rfl, n1, c1, name1, hs, hid, acd, m, hd, hm, hle⟩
        obtain ⟨cdj1, ob1, o1, raw1, g1, g2, -, rfl⟩ := attestedData_iff.mp hd
        have := hinitial pre _ _ ho ⟨f1, t1, n1, c1, name1, rfl, hr, submission_iff.mp hs, hid,
          hasInitialCounter_of g1 g2⟩ hm
        omega
      | authenticationResponse f1 t1 => rfl
      | registrationRequest _ _ _ _ => rfl
      | authenticationRequest _ _ _ => rfl
  · obtain ⟨q, h5, rfl, h6⟩ := servedOf_occurs h
    obtain ⟨f', t', n', c', name', m', rfl, e1, e2, e3, rfl, e4⟩ := h'
    exact_mod_cast hcount q _ m' h5
      ⟨f', t', n', c', name', rfl, guardedReply_success.mpr ⟨h6, e1⟩, e2, e3, e4⟩

/-- C84: requests of challenges are not refused. -/
theorem C84_requests {evs : List Event} {e : Event} (he : formIn e = none) :
    guardedReply app (allGuards app) evs e =
      (step app e (guardedRun app (allGuards app) evs).2).1 := by
  rw [guardedRun_db]
  refine guardedReply_passes (List.findSome?_eq_none_iff.mpr fun g hg => ?_)
  simp only [allGuards, List.mem_cons, List.not_mem_nil, or_false] at hg
  cases e with
  | registrationResponse f1 t1 => cases he
  | authenticationResponse f1 t1 => cases he
  | registrationRequest _ _ _ _ => rcases hg with rfl | rfl | rfl | rfl | rfl | rfl | rfl <;> rfl
  | authenticationRequest _ _ _ => rcases hg with rfl | rfl | rfl | rfl | rfl | rfl | rfl <;> rfl

/-- C84: with the empty list of checks it is the application. -/
theorem C84_no_guards (evs : List Event) (e : Event) : guardedReply app [] evs e = reply app evs e := by
  have pass : ∀ evs e, Passes app [] evs e := fun _ _ => rfl
  have served : ∀ evs, servedOf app [] evs = evs := by
    intro evs
    induction evs using List.reverseRecOn with
    | nil => rfl
    | append_singleton l a ih =>
      rcases servedOf_snoc (app := app) (gs := []) l a with ⟨-, h⟩ | ⟨h, -⟩
      · rw [h, ih]
      · exact absurd (pass l a) h
  rw [guardedReply_passes (pass evs e), served]

end

end WebAuthn.Flask
