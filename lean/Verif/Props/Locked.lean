import Verif.Model.Locked
import Verif.Spec.Locked
import Verif.Props.Guards
import Verif.Props.FlaskThreads
import Mathlib.Algebra.Order.BigOperators.Group.Finset
import Mathlib.Order.Lattice.Nat

/-!
# Overlapping requests of the example application behind a lock (C85)
-/

namespace WebAuthn.Flask

open WebAuthn WebAuthn.Spec WebAuthn.Props

variable {α ι : Type}

/-! ## What follows from being answered as if one after the other -/

/-- The order in which requests were answered. -/
structure Lin (rep : List Event → Event → Reply) (reqs : ι → Event) (ans : List α → ι → Option Reply)
    (order : List α → List ι) : Prop where
  nil : order [] = []
  snoc : ∀ sched a, order (sched ++ [a]) = order sched ∨
    ∃ i, i ∉ order sched ∧ order (sched ++ [a]) = order sched ++ [i]
  ans_iff : ∀ sched i r, ans sched i = some r ↔
    ∃ pre post, order sched = pre ++ i :: post ∧ rep (pre.map reqs) (reqs i) = r

namespace Lin

variable {rep : List Event → Event → Reply} {app : App} {reqs : ι → Event}
  {ans : List α → ι → Option Reply} {order : List α → List ι} {sched : List α}

theorem nodup (L : Lin rep reqs ans order) (sched : List α) : (order sched).Nodup := by
  induction sched using List.reverseRecOn with
  | nil => rw [L.nil]; exact List.nodup_nil
  | append_singleton s i ih =>
    rcases L.snoc s i with h | ⟨j, hn, h⟩
    · rw [h]; exact ih
    · rw [h]
      exact List.nodup_append.mpr ⟨ih, by simp, by rintro a ha b hb rfl; rw [List.mem_singleton] at hb; exact hn (hb ▸ ha)⟩

theorem mono (L : Lin rep reqs ans order) (sched more : List α) :
    order sched <+: order (sched ++ more) := by
  induction more using List.reverseRecOn with
  | nil => rw [List.append_nil]
  | append_singleton s i ih =>
    rw [← List.append_assoc]
    rcases L.snoc (sched ++ s) i with h | ⟨j, -, h⟩
    · rw [h]; exact ih
    · rw [h]; exact ih.trans (List.prefix_append _ _)

/-- There is a moment at which just the first of the requests had been answered. -/
theorem moment (L : Lin rep reqs ans order) (sched : List α) : ∀ a b, order sched = a ++ b →
    ∃ m, m <+: sched ∧ order m = a := by
  induction sched using List.reverseRecOn with
  | nil =>
    intro a b h
    rw [L.nil] at h
    exact ⟨[], List.prefix_rfl, by rw [L.nil, (List.append_eq_nil_iff.mp h.symm).1]⟩
  | append_singleton s i ih =>
    intro a b h
    rcases L.snoc s i with h' | ⟨j, -, h'⟩
    · obtain ⟨m, hm, ho⟩ := ih a b (h' ▸ h)
      exact ⟨m, hm.trans (List.prefix_append _ _), ho⟩
    · rcases List.eq_nil_or_concat b with rfl | ⟨b', x, rfl⟩
      · exact ⟨s ++ [i], List.prefix_rfl, by rw [h, List.append_nil]⟩
      · rw [h', List.concat_eq_append, ← List.append_assoc] at h
        obtain ⟨m, hm, ho⟩ := ih a b' (List.append_inj_left' h rfl)
        exact ⟨m, hm.trans (List.prefix_append _ _), ho⟩

theorem none_iff (L : Lin rep reqs ans order) {i : ι} : ans sched i = none ↔ i ∉ order sched := by
  constructor
  · intro h hi
    obtain ⟨pre, post, hs⟩ := List.append_of_mem hi
    rw [(L.ans_iff sched i _).mpr ⟨pre, post, hs, rfl⟩] at h
    cases h
  · intro h
    cases ha : ans sched i with
    | none => rfl
    | some r =>
      obtain ⟨pre, post, hs, -⟩ := (L.ans_iff sched i r).mp ha
      exact absurd (by rw [hs]; simp) h

/-- The requests before a request in the order have been answered at a moment when it has not. -/
theorem before (L : Lin rep reqs ans order) {pre post : List ι} {i : ι}
    (h : order sched = pre ++ i :: post) : ∃ m, Earlier ans sched i m ∧ order m = pre := by
  obtain ⟨m, hm, ho⟩ := L.moment sched _ _ h
  refine ⟨m, ⟨hm, L.none_iff.mpr ?_⟩, ho⟩
  have := L.nodup sched
  rw [h] at this
  rw [ho]
  intro hi
  exact (List.nodup_append.mp this).2.2 i hi i (by simp) rfl

/-- What happened in the history of a request was answered before it. -/
theorem occurred (L : Lin rep reqs ans order) {pre post : List ι} {i : ι}
    (h : order sched = pre ++ i :: post) {p : List Event} {e : Event} (ho : Occurs (pre.map reqs) p e) :
    ∃ m j, Earlier ans sched i m ∧ reqs j = e ∧ ans m j = some (rep p e) := by
  obtain ⟨m, hm, hpre⟩ := L.before h
  obtain ⟨q, hq⟩ := ho
  obtain ⟨a, b, rfl, rfl, hb⟩ := List.map_eq_append_iff.mp hq
  obtain ⟨j, b, rfl, rfl, rfl⟩ := List.map_eq_cons_iff.mp hb
  exact ⟨m, j, hm, rfl, (L.ans_iff m j _).mpr ⟨a, b, hpre, rfl⟩⟩

theorem unique (L : Lin rep reqs ans order) {i : ι} {p q p' q' : List ι}
    (h : order sched = p ++ i :: q) (h' : order sched = p' ++ i :: q') : p = p' := by
  have hn := L.nodup sched
  have e := h.symm.trans h'
  rw [h] at hn
  rcases List.append_eq_append_iff.mp e with ⟨a, rfl, ha⟩ | ⟨a, rfl, ha⟩
  · cases a with
    | nil => simp
    | cons x a =>
      simp only [List.cons_append, List.cons.injEq] at ha
      obtain ⟨rfl, rfl⟩ := ha
      simp [List.nodup_append] at hn
  · cases a with
    | nil => simp
    | cons x a =>
      simp only [List.cons_append, List.cons.injEq] at ha
      obtain ⟨rfl, rfl⟩ := ha
      simp [List.nodup_append] at hn

/-- Of two requests that have been answered one was first. -/
theorem total {i j : ι} (hij : i ≠ j) {p q p' q' : List ι}
    (h : order sched = p ++ i :: q) (h' : order sched = p' ++ j :: q') :
    Occurs (p.map reqs) (p'.map reqs) (reqs j) ∨ Occurs (p'.map reqs) (p.map reqs) (reqs i) := by
  rcases List.append_eq_append_iff.mp (h.symm.trans h') with ⟨a, rfl, ha⟩ | ⟨a, rfl, ha⟩
  · cases a with
    | nil => simp at ha; exact absurd ha.1 hij
    | cons x a =>
      simp only [List.cons_append, List.cons.injEq] at ha
      obtain ⟨rfl, rfl⟩ := ha
      exact Or.inr ⟨a.map reqs, by simp⟩
  · cases a with
    | nil => simp at ha; exact absurd ha.1.symm hij
    | cons x a =>
      simp only [List.cons_append, List.cons.injEq] at ha
      obtain ⟨rfl, rfl⟩ := ha
      exact Or.inl ⟨a.map reqs, by simp⟩

theorem first (L : Lin rep reqs ans order) {m : List α} {i j : ι} (hm : Earlier ans sched j m)
    {r : Reply} (hi : ans m i = some r) {p q : List ι} (h : order sched = p ++ j :: q) :
    ∃ a b, order sched = a ++ i :: b ∧ Occurs (p.map reqs) (a.map reqs) (reqs i) ∧
      rep (a.map reqs) (reqs i) = r := by
  obtain ⟨⟨more, rfl⟩, hn⟩ := hm
  obtain ⟨a, b, hs, hr⟩ := (L.ans_iff m i r).mp hi
  have hj := L.none_iff.mp hn
  obtain ⟨rest, hrest⟩ := L.mono m more
  have hs' : order (m ++ more) = a ++ i :: (b ++ rest) := by rw [← hrest, hs]; simp
  refine ⟨a, _, hs', ?_, hr⟩
  -- `j` is in `rest`
  have e := hrest.trans h
  rcases List.append_eq_append_iff.mp e with ⟨x, rfl, -⟩ | ⟨x, hx, hy⟩
  · exact ⟨(b ++ x).map reqs, by rw [hs]; simp⟩
  · cases x with
    | nil => exact ⟨b.map reqs, by rw [← List.append_nil p, ← hx, hs]; simp⟩
    | cons y x =>
      simp only [List.cons_append, List.cons.injEq] at hy
      obtain ⟨rfl, -⟩ := hy
      exact absurd (by rw [hx]; simp) hj

/-- Those answered at an earlier moment come first. -/
theorem prefix_of (L : Lin rep reqs ans order) {m : List α} {i : ι} (hm : Earlier ans sched i m)
    {p q : List ι} (h : order sched = p ++ i :: q) : order m <+: p := by
  obtain ⟨⟨more, rfl⟩, hn⟩ := hm
  have hi := L.none_iff.mp hn
  obtain ⟨rest, hrest⟩ := L.mono m more
  rcases List.append_eq_append_iff.mp (hrest.trans h) with ⟨x, rfl, -⟩ | ⟨x, hx, hy⟩
  · exact List.prefix_append _ _
  · cases x with
    | nil => rw [hx, List.append_nil]
    | cons y x =>
      simp only [List.cons_append, List.cons.injEq] at hy
      obtain ⟨rfl, -⟩ := hy
      exact absurd (by rw [hx]; simp) hi

/-! ### The predicates of the specification -/

theorem registersBy (L : Lin rep reqs ans order) {j : ι} {id : Bytes} {name : String} {k : CPK}
    (h : RegisteredWith ans app reqs sched j id name k) : ∃ p q, order sched = p ++ j :: q ∧
      RegistersBy rep app (p.map reqs) (reqs j) id name k := by
  obtain ⟨f, t, n, c, cdj, ob, o, raw, acd, h1, h2, h3⟩ := h
  obtain ⟨p, q, hs, hr⟩ := (L.ans_iff _ _ _).mp h2
  exact ⟨p, q, hs, f, t, n, c, cdj, ob, o, raw, acd, h1, hr, h3⟩

theorem registeredWith {j : ι} {m : List α} {p : List Event} {id : Bytes} {name : String} {k : CPK}
    (ha : ans m j = some (rep p (reqs j))) (h : RegistersBy rep app p (reqs j) id name k) :
    RegisteredWith ans app reqs m j id name k := by
  obtain ⟨f, t, n, c, cdj, ob, o, raw, acd, h1, h2, h3⟩ := h
  exact ⟨f, t, n, c, cdj, ob, o, raw, acd, h1, h2 ▸ ha, h3⟩

theorem authenticatesBy (L : Lin rep reqs ans order) {j : ι} {id : Bytes} {m : Nat}
    (h : AuthenticatedWith ans app reqs sched j id m) : ∃ p q, order sched = p ++ j :: q ∧
      AuthenticatesBy rep app (p.map reqs) (reqs j) id m := by
  obtain ⟨f, t, n, c, name, h1, h2, h3⟩ := h
  obtain ⟨p, q, hs, hr⟩ := (L.ans_iff _ _ _).mp h2
  exact ⟨p, q, hs, f, t, n, c, name, h1, hr, h3⟩

theorem beginsBy (L : Lin rep reqs ans order) {j : ι} {id : Bytes} {m : Nat}
    (h : BegunWith ans app reqs sched j id m) : ∃ p q, order sched = p ++ j :: q ∧
      BeginsBy rep app (p.map reqs) (reqs j) id m := by
  obtain ⟨f, t, n, c, name, h1, h2, h3⟩ := h
  obtain ⟨p, q, hs, hr⟩ := (L.ans_iff _ _ _).mp h2
  exact ⟨p, q, hs, f, t, n, c, name, h1, hr, h3⟩

theorem succeedsBy (L : Lin rep reqs ans order) {j : ι} {t : Int} {n : Nat} {c : Credential}
    {name : String} (h : SucceededWith ans app reqs sched j t n c name) :
    ∃ p q, order sched = p ++ j :: q ∧ SucceedsBy rep app (p.map reqs) (reqs j) t n c name := by
  obtain ⟨h1, h2⟩ := h
  obtain ⟨p, q, hs, hr⟩ := (L.ans_iff _ _ _).mp h1
  exact ⟨p, q, hs, hr, h2⟩

theorem issuedWith {j : ι} {m : List α} {p : List Event} {n : Nat} {ch : Bytes} {t : Int} {name : String}
    (ha : ans m j = some (rep p (reqs j))) (h : IssuesBy rep p (reqs j) n ch t name) :
    IssuedWith ans reqs m j n ch t name := by
  obtain ⟨⟨key, v, h1⟩, h2⟩ := h
  exact ⟨⟨key, v, h1 ▸ ha⟩, h2⟩

theorem sent {p : List ι} {i : ι} {cdj raw sig : Bytes} (h : Sent app (p.map reqs ++ [reqs i]) cdj raw sig) :
    SentIn app reqs cdj raw sig := by
  obtain ⟨f, t, n, c, name, handle, hm, hs⟩ := h
  rw [← List.map_singleton (f := reqs), ← List.map_append] at hm
  obtain ⟨j, -, hj⟩ := List.mem_map.mp hm
  exact ⟨j, f, t, n, c, name, handle, hj, hs⟩

theorem sent' {p : List ι} {cdj raw sig : Bytes} (h : Sent app (p.map reqs) cdj raw sig) :
    SentIn app reqs cdj raw sig := by
  obtain ⟨f, t, n, c, name, handle, hm, hs⟩ := h
  obtain ⟨j, -, hj⟩ := List.mem_map.mp hm
  exact ⟨j, f, t, n, c, name, handle, hj, hs⟩

end Lin

/-- C85: requests that are answered as if one after the other, by an application that is safe
when they do come one after the other, are safe. -/
theorem C85_transfer {rep : List Event → Event → Reply} {app : App} {reqs : ι → Event}
    {ans : List α → ι → Option Reply} (lin : Linearizable rep reqs ans) (G : Guarantees rep app)
    (S : Strong rep app)
    (attested : ∀ evs e id m, BeginsBy rep app evs e id m →
      ∃ name k, RegistersBy rep app evs e id name k) : SafeTogether ans app reqs := by
  classical
  obtain ⟨order, h1, h2, h3⟩ := lin
  have L : Lin rep reqs ans order := ⟨h1, h2, h3⟩
  clear h1 h2 h3
  -- a login comes after the registration of its credential
  have after : ∀ {sched i f now p q} {n c name} {j : ι} {p' q' name' k'},
      reqs i = .authenticationResponse f now → Submits app f n c name →
      order sched = p ++ i :: q → rep (p.map reqs) (reqs i) = success →
      order sched = p' ++ j :: q' → RegistersBy rep app (p'.map reqs) (reqs j) c.rawId name' k' →
      Occurs (p.map reqs) (p'.map reqs) (reqs j) ∧ name' = name := by
    intro sched i f now p q n c name j p' q' name' k' hi hf hs hr hs' hr'
    rw [hi] at hr
    obtain ⟨n0, c0, name0, pre, e, k0, cdj, raw, sig, handle, hf0, ho, hreg, -⟩ := G.registered _ _ _ hr
    obtain ⟨rfl, rfl, rfl⟩ := submits_unique hf hf0
    have hij : i ≠ j := by
      rintro rfl
      obtain ⟨f', t', _, _, _, _, _, _, _, h, -⟩ := hr'
      rw [hi] at h
      cases h
    rcases Lin.total hij hs hs' with h | h
    · obtain ⟨-, -, hname, -⟩ := G.once _ _ _ _ _ _ _ _ _ _ h hr' ho hreg
      exact ⟨h, hname⟩
    · -- the registration comes later: it is the one before, which is absurd
      have hocc : Occurs (p'.map reqs ++ [reqs j]) pre e := by
        obtain ⟨a, ha⟩ := h
        obtain ⟨b, hb⟩ := ho
        exact ⟨b ++ reqs i :: a ++ [reqs j], by rw [ha, hb]; simp⟩
      have hocc' : Occurs (p'.map reqs ++ [reqs j]) (p'.map reqs) (reqs j) := ⟨[], rfl⟩
      obtain ⟨hpre, -⟩ := G.once _ _ _ _ _ _ _ _ _ _ hocc hreg hocc' hr'
      obtain ⟨a, ha⟩ := h
      obtain ⟨b, hb⟩ := ho
      have : pre.length = (p'.map reqs).length := by rw [hpre]
      rw [ha, hb] at this
      simp at this
  have loginAfter : ∀ {sched i id b p q} {j : ι} {p' q' name' k'},
      AuthenticatesBy rep app (p.map reqs) (reqs i) id b →
      order sched = p ++ i :: q → order sched = p' ++ j :: q' →
      RegistersBy rep app (p'.map reqs) (reqs j) id name' k' →
      Occurs (p.map reqs) (p'.map reqs) (reqs j) := by
    intro sched i id b p q j p' q' name' k' ha hs hs' hr'
    obtain ⟨f, t, n, c, name, hi, hr, hf, rfl, -⟩ := ha
    exact (after hi hf hs hr hs' hr').1
  refine ⟨?_, ?_, ?_, ?_, ?_, ?_, ?_, ?_, ?_, ?_, ?_, ?_⟩
  · -- fresh
    intro sched i t n c name h
    obtain ⟨p, q, hs, h⟩ := L.succeedsBy h
    obtain ⟨pre, e, ch, t', name', d, text, ho, hi, hrest⟩ := G.fresh _ _ _ _ _ _ h
    obtain rfl := S.userBound _ _ _ _ _ _ _ _ _ _ _ h ho hi
    obtain ⟨m, j, hm, rfl, ha⟩ := L.occurred hs ho
    exact ⟨m, j, ch, t', d, text, hm, Lin.issuedWith ha hi, hrest⟩
  · -- singleUse
    intro sched i j t t' n c c' name name' h h'
    obtain ⟨p, q, hs, h⟩ := L.succeedsBy h
    obtain ⟨p', q', hs', h'⟩ := L.succeedsBy h'
    by_contra hij
    rcases Lin.total hij hs hs' with ⟨mid, hm⟩ | ⟨mid, hm⟩
    · rw [hm] at h
      exact S.singleUse _ _ _ _ _ _ _ _ _ _ _ h' h
    · rw [hm] at h'
      exact S.singleUse _ _ _ _ _ _ _ _ _ _ _ h h'
  · -- registered
    intro sched i f now hi ha
    obtain ⟨p, q, hs, hr⟩ := (L.ans_iff _ _ _).mp ha
    rw [hi] at hr
    obtain ⟨n, c, name, pre, e, k, cdj, raw, sig, handle, hf, ho, hreg, hc, hsig⟩ := G.registered _ _ _ hr
    obtain ⟨m, j, hm, rfl, ha'⟩ := L.occurred hs ho
    exact ⟨n, c, name, m, j, k, cdj, raw, sig, handle, hf, hm, Lin.registeredWith ha' hreg, hc, hsig⟩
  · -- once
    intro sched j j' id name name' k k' h h'
    obtain ⟨p, q, hs, h⟩ := L.registersBy h
    obtain ⟨p', q', hs', h'⟩ := L.registersBy h'
    have o : Occurs ((order sched).map reqs) (p.map reqs) (reqs j) := ⟨q.map reqs, by rw [hs]; simp⟩
    have o' : Occurs ((order sched).map reqs) (p'.map reqs) (reqs j') := ⟨q'.map reqs, by rw [hs']; simp⟩
    obtain ⟨hp, -, hname, hk⟩ := G.once _ _ _ _ _ _ _ _ _ _ o h o' h'
    refine ⟨?_, hname, hk⟩
    have hl : p.length = p'.length := by simpa using congrArg List.length hp
    have := (List.append_inj (hs.symm.trans hs') hl).2
    simp only [List.cons.injEq] at this
    exact this.1
  · -- increasing
    intro sched m i j id a b hm hi hj
    obtain ⟨p', q', hs', hj⟩ := L.authenticatesBy hj
    obtain ⟨f, t, n, c, name, hreq, ha, hrest⟩ := hi
    obtain ⟨x, y, hxy, ho, hr⟩ := L.first hm ha hs'
    exact G.increasing _ _ _ _ _ _ _ ho ⟨f, t, n, c, name, hreq, hr, hrest⟩ hj
  · -- distinct
    intro sched i j id a hi hj
    obtain ⟨p, q, hs, hi⟩ := L.authenticatesBy hi
    obtain ⟨p', q', hs', hj⟩ := L.authenticatesBy hj
    by_contra hij
    rcases Lin.total hij hs hs' with h | h
    · exact absurd (G.increasing _ _ _ _ _ _ _ h hj hi) (lt_irrefl _)
    · exact absurd (G.increasing _ _ _ _ _ _ _ h hi hj) (lt_irrefl _)
  · -- above
    intro sched i j id a b hj hi h0
    obtain ⟨p, q, hs, hi⟩ := L.authenticatesBy hi
    obtain ⟨p', q', hs', hj⟩ := L.beginsBy hj
    obtain ⟨name, k, hreg⟩ := attested _ _ _ _ hj
    exact S.above _ _ _ _ _ _ _ (loginAfter hi hs hs' hreg) hj hi h0
  · -- approved
    intro sched i j f now n c name name' k acts holder hreg hi ha hf
    obtain ⟨p', q', hs', hreg⟩ := L.registersBy hreg
    obtain ⟨p, q, hs, hr⟩ := (L.ans_iff _ _ _).mp ha
    obtain ⟨ho, rfl⟩ := after hi hf hs hr hs' hreg
    have holder' := holder_mono holder fun cdj raw sig => Lin.sent (app := app) (p := p) (i := i)
    have hsucc : SucceedsBy rep app (p.map reqs) (reqs i) now n c name' := ⟨hr, f, Or.inr hi, hf⟩
    rw [hi] at hr holder'
    obtain ⟨-, a, pre, e, ch, t', name'', hact, happ, hocc, hiss, ht⟩ :=
      G.approved _ _ _ _ _ _ _ _ _ _ _ holder' ho hreg hr hf
    obtain rfl := S.userBound _ _ _ _ _ _ _ _ _ _ _ hsucc hocc hiss
    obtain ⟨m, j', hm, rfl, ha'⟩ := L.occurred hs hocc
    exact ⟨rfl, a, m, j', ch, t', hact, happ, hm, Lin.issuedWith ha' hiss, ht⟩
  · -- oneEach
    intro sched j id name k acts holder hreg
    obtain ⟨p', q', hs', hreg⟩ := L.registersBy hreg
    have ho : Occurs ((order sched).map reqs) (p'.map reqs) (reqs j) := ⟨q'.map reqs, by rw [hs']; simp⟩
    have holder' := holder_mono holder fun cdj raw sig => Lin.sent' (app := app) (p := order sched)
    obtain ⟨approval, ha1, ha2⟩ := G.oneEach _ _ _ _ _ _ _ holder' ho hreg
    have number : ∀ {c i}, LoginWith ans app reqs sched c i →
        LoginNumber rep app ((order sched).map reqs) c ((order sched).idxOf i) ∧ i ∈ order sched := by
      rintro c i ⟨f, t, n, nm, hi, ha, hf⟩
      obtain ⟨p, q, hs, hr⟩ := (L.ans_iff _ _ _).mp ha
      have hidx : (order sched).idxOf i = p.length := by
        have hn := L.nodup sched
        rw [hs] at hn ⊢
        have : i ∉ p := fun h => (List.nodup_append.mp hn).2.2 i h i (by simp) rfl
        rw [List.idxOf_append_of_notMem this]
        simp
      rw [hidx]
      refine ⟨⟨f, t, n, nm, ?_, ?_, hf⟩, by rw [hs]; simp⟩
      · rw [hs]; simp [hi]
      · rw [hs]; simpa [hi] using hr
    refine ⟨fun i => approval ((order sched).idxOf i), ?_, ?_⟩
    · intro i c hl hid
      exact ha1 _ _ (number hl).1 hid
    · intro i i' c c' hl hid hl' hid' he
      have := ha2 _ _ _ _ (number hl).1 hid (number hl').1 hid' he
      exact (List.idxOf_inj (number hl).2).mp this
  · -- ownerOnly
    intro sched i j id name k acts f now n c hreg hfirst holder hi ha hf
    obtain ⟨p', q', hs', hreg⟩ := L.registersBy hreg
    obtain ⟨p, q, hs, hr⟩ := (L.ans_iff _ _ _).mp ha
    have hnone : ∀ {pre e id' k'}, Occurs (p'.map reqs) pre e → ¬ RegistersBy rep app pre e id' name k' := by
      intro pre e id' k' ho h
      obtain ⟨m, j', hm, rfl, ha'⟩ := L.occurred hs' ho
      exact hfirst m j' id' k' hm (Lin.registeredWith ha' h)
    have holder' := holder_mono holder fun cdj raw sig => Lin.sent (app := app) (p := p) (i := i)
    rw [hi] at hr holder'
    have hij : i ≠ j := by
      rintro rfl
      obtain ⟨f', t', _, _, _, _, _, _, _, h, -⟩ := hreg
      rw [hi] at h
      cases h
    rcases Lin.total hij hs hs' with h | ⟨mid, hmid⟩
    · exact S.ownerOnly _ _ _ _ _ _ _ _ _ _ _ h hreg (fun _ _ _ _ => hnone) holder' hr hf
    · obtain ⟨n0, c0, name0, pre, e, k0, cdj, raw, sig, handle, hf0, ⟨b, hb⟩, hreg0, -⟩ := G.registered _ _ _ hr
      obtain ⟨rfl, rfl, rfl⟩ := submits_unique hf hf0
      exact absurd hreg0 (hnone ⟨b ++ reqs i :: mid, by rw [hmid, hb]; simp⟩)
  · -- attestedId
    intro sched i f t n c name cdj ob o raw acd hi ha hf hc ho hacd
    obtain ⟨p, q, hs, hr⟩ := (L.ans_iff _ _ _).mp ha
    rw [hi] at hr
    exact S.attestedId _ _ _ _ _ _ _ _ _ _ _ hr hf hc ho hacd
  · -- keys
    intro sched j id name k h
    obtain ⟨p, q, hs, h⟩ := L.registersBy h
    exact ⟨S.requested _ _ _ _ _ h, S.profile _ _ _ _ _ h, S.longId _ _ _ _ _ h⟩

/-! ## The lock -/

variable [DecidableEq ι] {app : App} {gs : List Guard} {reqs : ι → Event}

theorem run_of_step (t : Task) (db : Db) : (t.step db).1.run (t.step db).2 = t.run db := by
  cases t <;> rfl

theorem serveLocked_snoc (sched : List (Action ι)) (a : Action ι) :
    serveLocked app gs reqs (sched ++ [a]) = (serveLocked app gs reqs sched).act app gs reqs a := by
  rw [serveLocked, serveLocked, List.foldl_append]
  rfl

/-- What holds of the server, when requests were answered in the order `o`. -/
structure LockInv (app : App) (gs : List Guard) (reqs : ι → Event) (o : List ι) (s : LockedServer ι) :
    Prop where
  answered : ∀ i r, s.phases i = .answered r ↔
    ∃ pre post, o = pre ++ i :: post ∧ guardedReply app gs (pre.map reqs) (reqs i) = r
  log : s.log = (guardedRun app gs (o.map reqs)).1
  serving : ∀ i t, s.phases i = .serving t → s.holder = some i ∧
    refusedBy gs (guardedRun app gs (o.map reqs)).1 (guardedRun app gs (o.map reqs)).2 (reqs i) = none ∧
    t.run s.db = Flask.step app (reqs i) (guardedRun app gs (o.map reqs)).2
  held : ∀ i, s.holder = some i → ∃ t, s.phases i = .serving t
  free : s.holder = none → s.db = (guardedRun app gs (o.map reqs)).2
  saved : s.holder ≠ none → s.saved = (guardedRun app gs (o.map reqs)).2

omit [DecidableEq ι] in
theorem LockInv.notMem {o : List ι} {s : LockedServer ι} (h : LockInv app gs reqs o s) {i : ι}
    (hi : ∀ r, s.phases i ≠ .answered r) : i ∉ o := by
  intro hm
  obtain ⟨pre, post, ho⟩ := List.append_of_mem hm
  exact hi _ ((h.answered i _).mpr ⟨pre, post, ho, rfl⟩)

/-- A request is answered. -/
theorem LockInv.answer {o : List ι} {s s' : LockedServer ι} (h : LockInv app gs reqs o s) {i : ι}
    (hi : ∀ r, s.phases i ≠ .answered r) (hp : s'.phases = (s.put i
      (.answered (guardedReply app gs (o.map reqs) (reqs i)))).phases)
    (hs : (s'.log, s'.db) = (guardedStep app gs (reqs i) (guardedRun app gs (o.map reqs))).2)
    (hother : ∀ j t, j ≠ i → s.phases j ≠ .serving t) (hh : s'.holder = none) :
    LockInv app gs reqs (o ++ [i]) s' := by
  have hi := h.notMem hi
  rw [← guardedRun_snoc, ← List.map_singleton (f := reqs), ← List.map_append] at hs
  refine ⟨?_, ?_, ?_, ?_, ?_, fun h => absurd hh h⟩
  · intro j r
    rw [hp]
    simp only [LockedServer.put]
    by_cases hj : j = i
    · subst hj
      rw [if_pos rfl]
      constructor
      · rintro ⟨⟩
        exact ⟨o, [], rfl, rfl⟩
      · rintro ⟨pre, post, ho, rfl⟩
        have : pre = o := by
          rcases List.eq_nil_or_concat post with rfl | ⟨q, x, rfl⟩
          · exact (List.append_inj_left' ho rfl).symm
          · rw [List.concat_eq_append, ← List.cons_append, ← List.append_assoc] at ho
            have := List.append_inj_left' ho rfl
            exact absurd (by rw [this]; simp) hi
        rw [this]
    · rw [if_neg hj, h.answered]
      constructor
      · rintro ⟨pre, post, rfl, hr⟩
        exact ⟨pre, post ++ [i], by simp, hr⟩
      · rintro ⟨pre, post, ho, hr⟩
        rcases List.eq_nil_or_concat post with rfl | ⟨q, x, rfl⟩
        · have := List.append_inj_right' ho rfl
          simp only [List.cons.injEq, and_true] at this
          exact absurd this.symm hj
        · rw [List.concat_eq_append, ← List.cons_append, ← List.append_assoc] at ho
          exact ⟨pre, q, List.append_inj_left' ho rfl, hr⟩
  · exact congrArg Prod.fst hs
  · intro j t ht
    rw [hp] at ht
    simp only [LockedServer.put] at ht
    by_cases hj : j = i
    · rw [if_pos hj] at ht
      cases ht
    · rw [if_neg hj] at ht
      exact absurd ht (hother j t hj)
  · intro j hj
    rw [hh] at hj
    cases hj
  · intro _
    exact congrArg Prod.snd hs

/-- A request goes on: either it is answered, or nobody is. -/
theorem LockInv.go {o : List ι} {s : LockedServer ι} (h : LockInv app gs reqs o s) (i : ι) :
    LockInv app gs reqs o (s.go app gs reqs i) ∨
    i ∉ o ∧ LockInv app gs reqs (o ++ [i]) (s.go app gs reqs i) := by
  cases hp : s.phases i with
  | answered r =>
    left
    have : s.go app gs reqs i = s := by simp [LockedServer.go, hp]
    rw [this]
    exact h
  | lost =>
    left
    have : s.go app gs reqs i = s := by simp [LockedServer.go, hp]
    rw [this]
    exact h
  | waiting =>
    cases hh : s.holder with
    | some j =>
      left
      have : s.go app gs reqs i = s := by simp [LockedServer.go, hp, hh]
      rw [this]
      exact h
    | none =>
      have hdb := h.free hh
      have alone : ∀ j t, s.phases j ≠ .serving t := by
        intro j t e
        rw [(h.serving j t e).1] at hh
        cases hh
      cases hr : refusedBy gs s.log s.db (reqs i) with
      | some m =>
        right
        have e : s.go app gs reqs i = s.put i (.answered (.text m 400)) := by
          simp [LockedServer.go, hp, hh, hr]
        have hg : guardedStep app gs (reqs i) (guardedRun app gs (o.map reqs)) =
            (.text m 400, guardedRun app gs (o.map reqs)) := by
          rw [h.log, hdb] at hr
          rw [guardedStep, hr]
        rw [e]
        refine ⟨h.notMem (by simp [hp]), h.answer (by simp [hp]) ?_ ?_ (fun j t _ => alone j t) hh⟩
        · rw [guardedReply, hg]
        · rw [hg]
          exact Prod.ext h.log hdb
      | none =>
        left
        have e : s.go app gs reqs i = { s.put i (.serving (task app (reqs i))) with
            holder := some i, saved := s.db } := by
          simp [LockedServer.go, hp, hh, hr]
        rw [e]
        refine ⟨?_, h.log, ?_, ?_, ?_, fun _ => hdb⟩
        · intro j r
          simp only [LockedServer.put]
          by_cases hj : j = i
          · subst hj
            rw [if_pos rfl, ← h.answered, hp]
            simp
          · rw [if_neg hj, h.answered]
        · intro j t ht
          simp only [LockedServer.put] at ht ⊢
          by_cases hj : j = i
          · subst hj
            rw [if_pos rfl] at ht
            cases ht
            rw [h.log, hdb] at hr
            exact ⟨rfl, hr, by rw [task_run, hdb]⟩
          · rw [if_neg hj] at ht
            exact absurd ht (alone j t)
        · rintro j ⟨⟩
          exact ⟨_, if_pos rfl⟩
        · simp
  | serving t =>
    obtain ⟨h1, h2, h3⟩ := h.serving i t hp
    have alone : ∀ j t, j ≠ i → s.phases j ≠ .serving t := by
      intro j t hj e
      have := (h.serving j t e).1
      rw [h1] at this
      exact hj (Option.some.inj this).symm
    by_cases hd : ∃ r, t = .done r
    · right
      obtain ⟨r, rfl⟩ := hd
      have hg := guardedStep_passes (app := app) (gs := gs) (evs := o.map reqs) (e := reqs i) h2
      rw [← h3] at hg
      have e : s.go app gs reqs i = { s.put i (.answered r) with
          holder := none, log := s.log ++ [(reqs i, r)] } := by
        simp [LockedServer.go, hp]
      rw [e]
      refine ⟨h.notMem (by simp [hp]), h.answer (by simp [hp]) ?_ ?_ alone rfl⟩
      · rw [guardedReply, hg]
        rfl
      · rw [hg, h.log]
        rfl
    · left
      have e : s.go app gs reqs i = { s.put i (.serving (t.step s.db).1) with db := (t.step s.db).2 } := by
        cases t with
        | done r => exact absurd ⟨r, rfl⟩ hd
        | _ => simp [LockedServer.go, hp]
      rw [e]
      refine ⟨?_, h.log, ?_, ?_, ?_, h.saved⟩
      · intro j r
        simp only [LockedServer.put]
        by_cases hj : j = i
        · subst hj
          rw [if_pos rfl, ← h.answered, hp]
          simp
        · rw [if_neg hj, h.answered]
      · intro j t' ht
        simp only [LockedServer.put] at ht ⊢
        by_cases hj : j = i
        · subst hj
          rw [if_pos rfl] at ht
          cases ht
          exact ⟨h1, h2, by rw [run_of_step, h3]⟩
        · rw [if_neg hj] at ht
          exact absurd ht (alone j t' hj)
      · intro j hj
        have hj : s.holder = some j := hj
        rw [h1] at hj
        obtain rfl := Option.some.inj hj
        exact ⟨_, if_pos rfl⟩
      · intro hn
        have hn : s.holder = none := hn
        rw [h1] at hn
        cases hn

/-- A request is cut off: it is as if it had not come. -/
theorem LockInv.cut {o : List ι} {s : LockedServer ι} (h : LockInv app gs reqs o s) (i : ι) :
    LockInv app gs reqs o (s.cut i) := by
  have same : ∀ s' : LockedServer ι, s'.phases = (s.put i .lost).phases → (∀ r, s.phases i ≠ .answered r) →
      ∀ j r, s'.phases j = .answered r ↔
        ∃ pre post, o = pre ++ j :: post ∧ guardedReply app gs (pre.map reqs) (reqs j) = r := by
    intro s' hs hn j r
    rw [hs]
    simp only [LockedServer.put]
    by_cases hj : j = i
    · subst hj
      rw [if_pos rfl, ← h.answered]
      simp [hn r]
    · rw [if_neg hj, h.answered]
  cases hp : s.phases i with
  | answered r =>
    have : s.cut i = s := by simp [LockedServer.cut, hp]
    rw [this]
    exact h
  | lost =>
    have : s.cut i = s := by simp [LockedServer.cut, hp]
    rw [this]
    exact h
  | waiting =>
    have e : s.cut i = s.put i .lost := by simp [LockedServer.cut, hp]
    rw [e]
    refine ⟨same _ rfl (by simp [hp]), h.log, ?_, ?_, h.free, h.saved⟩
    · intro j t ht
      simp only [LockedServer.put] at ht ⊢
      by_cases hj : j = i
      · rw [if_pos hj] at ht
        cases ht
      · rw [if_neg hj] at ht
        exact h.serving j t ht
    · intro j hj
      obtain ⟨t, ht⟩ := h.held j hj
      have hji : j ≠ i := by
        rintro rfl
        rw [hp] at ht
        cases ht
      exact ⟨t, (if_neg hji).trans ht⟩
  | serving t =>
    have e : s.cut i = { s.put i .lost with holder := none, db := s.saved } := by
      simp [LockedServer.cut, hp]
    obtain ⟨h1, -, -⟩ := h.serving i t hp
    rw [e]
    refine ⟨same _ rfl (by simp [hp]), h.log, ?_, ?_, fun _ => h.saved (by simp [h1]), ?_⟩
    · intro j t' ht
      simp only [LockedServer.put] at ht
      by_cases hj : j = i
      · rw [if_pos hj] at ht
        cases ht
      · rw [if_neg hj] at ht
        have := (h.serving j t' ht).1
        rw [h1] at this
        exact absurd (Option.some.inj this).symm hj
    · intro j hj
      cases hj
    · intro hn
      exact absurd rfl hn

/-- Whatever happens next, either a request is answered, or nobody is. -/
theorem LockInv.act {o : List ι} {s : LockedServer ι} (h : LockInv app gs reqs o s) (a : Action ι) :
    LockInv app gs reqs o (s.act app gs reqs a) ∨
    ∃ i, i ∉ o ∧ LockInv app gs reqs (o ++ [i]) (s.act app gs reqs a) := by
  cases a with
  | go i =>
    rcases h.go i with h | h
    · exact Or.inl h
    · exact Or.inr ⟨i, h⟩
  | cut i => exact Or.inl (h.cut i)

open Classical in
/-- The order in which requests were answered. -/
noncomputable def lockOrder (app : App) (gs : List Guard) (reqs : ι → Event) (sched : List (Action ι)) :
    List ι :=
  (sched.foldl (fun s a => (if LockInv app gs reqs s.1 (s.2.act app gs reqs a) then s.1
    else if h : ∃ i, i ∉ s.1 ∧ LockInv app gs reqs (s.1 ++ [i]) (s.2.act app gs reqs a)
      then s.1 ++ [h.choose] else s.1, s.2.act app gs reqs a))
    (([], ⟨fun _ => .waiting, none, [], {}, {}⟩) : List ι × LockedServer ι)).1

theorem lockOrder_snoc (sched : List (Action ι)) (a : Action ι)
    (h : LockInv app gs reqs (lockOrder app gs reqs sched) (serveLocked app gs reqs sched)) :
    LockInv app gs reqs (lockOrder app gs reqs (sched ++ [a])) (serveLocked app gs reqs (sched ++ [a])) ∧
    (lockOrder app gs reqs (sched ++ [a]) = lockOrder app gs reqs sched ∨
      ∃ i, i ∉ lockOrder app gs reqs sched ∧
        lockOrder app gs reqs (sched ++ [a]) = lockOrder app gs reqs sched ++ [i]) := by
  classical
  have server : ∀ (l : List (Action ι)) (x : List ι × LockedServer ι), (l.foldl (fun s a =>
      (if LockInv app gs reqs s.1 (s.2.act app gs reqs a) then s.1
      else if h : ∃ i, i ∉ s.1 ∧ LockInv app gs reqs (s.1 ++ [i]) (s.2.act app gs reqs a)
        then s.1 ++ [h.choose] else s.1, s.2.act app gs reqs a)) x).2 =
      l.foldl (LockedServer.act app gs reqs) x.2 := by
    intro l
    induction l with
    | nil => intro x; rfl
    | cons b l ih => intro x; rw [List.foldl_cons, ih]; rfl
  have e : lockOrder app gs reqs (sched ++ [a]) =
      if LockInv app gs reqs (lockOrder app gs reqs sched) ((serveLocked app gs reqs sched).act app gs reqs a)
      then lockOrder app gs reqs sched
      else if h : ∃ i, i ∉ lockOrder app gs reqs sched ∧ LockInv app gs reqs
          (lockOrder app gs reqs sched ++ [i]) ((serveLocked app gs reqs sched).act app gs reqs a)
        then lockOrder app gs reqs sched ++ [h.choose] else lockOrder app gs reqs sched := by
    unfold lockOrder
    rw [List.foldl_append, List.foldl_cons, List.foldl_nil, server, serveLocked]
  rw [e, serveLocked_snoc]
  by_cases h1 : LockInv app gs reqs (lockOrder app gs reqs sched)
      ((serveLocked app gs reqs sched).act app gs reqs a)
  · rw [if_pos h1]
    exact ⟨h1, Or.inl rfl⟩
  · rw [if_neg h1]
    have h2 := (h.act a).resolve_left h1
    rw [dif_pos h2]
    exact ⟨h2.choose_spec.2, Or.inr ⟨_, h2.choose_spec.1, rfl⟩⟩

theorem lockInv (sched : List (Action ι)) :
    LockInv app gs reqs (lockOrder app gs reqs sched) (serveLocked app gs reqs sched) := by
  induction sched using List.reverseRecOn with
  | nil =>
    refine ⟨?_, rfl, ?_, ?_, fun _ => rfl, fun _ => rfl⟩
    · intro i r
      constructor
      · intro h
        cases h
      · rintro ⟨pre, post, h, -⟩
        simp [lockOrder] at h
    · intro i t h
      cases h
    · intro i h
      cases h
  | append_singleton s a ih => exact (lockOrder_snoc s a ih).1

theorem lockedAnswer_iff {sched : List (Action ι)} {i : ι} {r : Reply} : lockedAnswer app gs reqs sched i = some r ↔
    (serveLocked app gs reqs sched).phases i = .answered r := by
  unfold lockedAnswer
  split
  · rename_i r' h
    rw [h]
    simp
  · rename_i h
    simp only [reduceCtorEq, false_iff]
    exact h r

theorem lockOrder_lin (app : App) (gs : List Guard) (reqs : ι → Event) :
    Lin (guardedReply app gs) reqs (lockedAnswer app gs reqs) (lockOrder app gs reqs) :=
  ⟨rfl, fun sched a => (lockOrder_snoc sched a (lockInv sched)).2, fun sched i r => by
    rw [lockedAnswer_iff, (lockInv sched).answered]⟩

/-- C85: behind the lock overlapping requests, some of which may be cut off, are answered as if
they came one after the other, in the order in which they are answered; whatever the checks. -/
theorem C85_linearizable (app : App) (gs : List Guard) (reqs : ι → Event) :
    Linearizable (guardedReply app gs) reqs (lockedAnswer app gs reqs) :=
  ⟨lockOrder app gs reqs, (lockOrder_lin app gs reqs).nil, (lockOrder_lin app gs reqs).snoc,
    (lockOrder_lin app gs reqs).ans_iff⟩

/-- A registration that succeeds registers a credential. -/
theorem reply_registers {evs : List Event} {f : Form} {t : Int}
    (hs : reply app evs (.registrationResponse f t) = success) :
    ∃ n c name k, Submits app f n c name ∧
      Registers app evs (.registrationResponse f t) c.rawId name k := by
  have hs' : (registrationResponse app f t (run app evs)).1 = success := hs
  unfold registrationResponse at hs'
  split at hs'
  · rename_i r hr
    exact absurd hs' (readResponse_ne_success hr)
  · rename_i c ch u hr
    obtain ⟨n, name, hf, -⟩ := readResponse_ok_iff.mp hr
    have hh : handleAttestation app.env (registrar app.env) (attestationArgs c ch u) (run app evs) =
        (.ok (), _) := Prod.ext (conclude_success.mp hs') rfl
    obtain ⟨-, o, raw, ⟨cdj, ob, h1, -, h2, -, h3⟩, -, h4⟩ := attestation_accepts.mp hh
    rcases registerAttestation_cases app.env ⟨c, o, .NONE, _, _, none⟩ (run app evs) with
      ⟨x, hx, h⟩ | ⟨acd, v, k, key, h5, -, h6, -⟩
    · exact absurd (congrArg Prod.fst (h.symm.trans h4)) hx
    · exact ⟨n, c, name, k, hf, f, t, n, c, cdj, ob, o, raw, acd, rfl, hs, hf, rfl, h1, h2, h5, h6⟩

theorem begins_registers {evs : List Event} {e : Event} {id : Bytes} {m : Nat}
    (h : BeginsBy (guardedReply app gs) app evs e id m) :
    ∃ name k, RegistersBy (guardedReply app gs) app evs e id name k := by
  obtain ⟨f, t, n, c, name, rfl, hr, hf, rfl, hc⟩ := h
  obtain ⟨-, hs⟩ := guardedReply_success.mp hr
  obtain ⟨n', c', name', k, hf', hreg⟩ := reply_registers hs
  obtain ⟨rfl, rfl, rfl⟩ := submits_unique hf hf'
  exact ⟨name, k, registersBy_guarded.mpr ⟨(guardedReply_success.mp hr).1, hreg⟩⟩

/-- C85: behind the lock and all the checks overlapping requests are safe. -/
theorem C85_safe (codec : CodecLaws app.env) (json : JsonLaw app.env) (reqs : ι → Event) :
    SafeTogether (lockedAnswer app (allGuards app) reqs) app reqs :=
  C85_transfer (C85_linearizable app (allGuards app) reqs) (C84_guarantees codec json _)
    (C84_strong codec json fun _ h => h) fun _ _ _ _ => begins_registers

/-! ## Honest users are served -/

/-- C85: behind the lock and all the checks, whatever the others do, an honest registration is
answered with success, if it is answered: with a challenge of the user that has not been used by
then, a new name, and a key and an id as required. -/
theorem C85_registration (codec : CodecLaws app.env) (json : JsonLaw app.env)
    {sched m : List (Action ι)} {i j : ι} {f : Form} {now t : Int} {n : Nat} {ch key : Bytes} {r : Reply}
    {name chText : String} {c : Credential} {cdj ob raw : Bytes} {ad : AuthData}
    {acd : AttestedCredentialData} {k : CPK}
    (hans : lockedAnswer app (allGuards app) reqs sched i = some r)
    (hreq : reqs i = .registrationResponse f now)
    -- the challenge
    (hm : Earlier (lockedAnswer app (allGuards app) reqs) sched i m)
    (hi : IssuedWith (lockedAnswer app (allGuards app) reqs) reqs m j n ch t name)
    (ht : now - t ≤ 60000)
    (hunused : ∀ m i' t c name, Earlier (lockedAnswer app (allGuards app) reqs) sched i m →
      ¬ SucceededWith (lockedAnswer app (allGuards app) reqs) app reqs m i' t n c name)
    -- the form and the response of the browser
    (hf : Submits app f n c name) (hresp : c.response = .attestation cdj ob)
    (hcdj : ClientDataText "webauthn.create" chText "http://localhost:5000" none cdj)
    (hch : Base64UrlText chText ch) (hob : EncodedNoneAttestation app.env raw ob)
    -- the authenticator data
    (had : EncodedAuthData app.env ad raw) (hacd : ad.attested = some acd)
    (hk : acd.credentialPublicKey = some k) (hkey : coseKey app.env k = .ok key)
    (hrp : RpHashOk app.env raw "localhost") (hup : FlagSet raw 0)
    (halg : KeyAlg k .ES256) (hprofile : Profile k)
    (hid : acd.credentialId = c.rawId) (hlong : 16 ≤ c.rawId.length)
    -- the credential id is new, and the name
    (hnew : ∀ m j' name k, Earlier (lockedAnswer app (allGuards app) reqs) sched i m →
      ¬ RegisteredWith (lockedAnswer app (allGuards app) reqs) app reqs m j' c.rawId name k)
    (hfirst : ∀ m j' id k, Earlier (lockedAnswer app (allGuards app) reqs) sched i m →
      ¬ RegisteredWith (lockedAnswer app (allGuards app) reqs) app reqs m j' id name k) :
    r = success := by
  have L := lockOrder_lin app (allGuards app) reqs
  obtain ⟨p, q, hs, hr⟩ := (L.ans_iff _ _ _).mp hans
  rw [hreq] at hr
  obtain ⟨⟨ky, v, hv⟩, hj⟩ := hi
  obtain ⟨a, b, -, ho, hrep⟩ := L.first hm hv hs
  rw [← hr]
  refine C84_registration codec json ho ⟨⟨ky, v, hrep⟩, hj⟩ ht ?_ hf hresp hcdj hch hob had hacd hk hkey
    hrp hup halg hprofile hid hlong ?_ ?_
  · rintro pre e t' c' name' ho ⟨hsucc, hrest⟩
    obtain ⟨m', i', hm', rfl, ha⟩ := L.occurred hs ho
    exact hunused m' i' t' c' name' hm' ⟨hsucc ▸ ha, hrest⟩
  · intro pre e name' k' ho hreg
    obtain ⟨m', i', hm', rfl, ha⟩ := L.occurred hs ho
    exact hnew m' i' name' k' hm' (Lin.registeredWith ha hreg)
  · intro pre e id' k' ho hreg
    obtain ⟨m', i', hm', rfl, ha⟩ := L.occurred hs ho
    exact hfirst m' i' id' k' hm' (Lin.registeredWith ha hreg)

/-- C85: the same of an honest login, with a counter above those before it. -/
theorem C85_login (codec : CodecLaws app.env) (json : JsonLaw app.env)
    {sched m m' : List (Action ι)} {i j j' : ι} {f : Form} {now t : Int} {n : Nat} {ch : Bytes} {r : Reply}
    {name chText : String} {c : Credential} {cdj raw sig : Bytes} {handle : Option Bytes}
    {ad : AuthData} {k : CPK}
    (hans : lockedAnswer app (allGuards app) reqs sched i = some r)
    (hreq : reqs i = .authenticationResponse f now)
    -- the challenge and the registration
    (hm : Earlier (lockedAnswer app (allGuards app) reqs) sched i m)
    (hi : IssuedWith (lockedAnswer app (allGuards app) reqs) reqs m j n ch t name)
    (ht : now - t ≤ 60000)
    (hunused : ∀ m i' t c name, Earlier (lockedAnswer app (allGuards app) reqs) sched i m →
      ¬ SucceededWith (lockedAnswer app (allGuards app) reqs) app reqs m i' t n c name)
    (hm' : Earlier (lockedAnswer app (allGuards app) reqs) sched i m')
    (hreg : RegisteredWith (lockedAnswer app (allGuards app) reqs) app reqs m' j' c.rawId name k)
    -- the form and the response of the browser
    (hf : Submits app f n c name) (hresp : c.response = .assertion cdj raw sig handle)
    (hcdj : ClientDataText "webauthn.get" chText "http://localhost:5000" none cdj)
    (hch : Base64UrlText chText ch)
    -- the handle of the user was in the tables when nobody had the lock
    (hhandle : ∀ h, handle = some h → ∃ m, Earlier (lockedAnswer app (allGuards app) reqs) sched i m ∧
      (serveLocked app (allGuards app) reqs m).holder = none ∧
      ∃ u ∈ (serveLocked app (allGuards app) reqs m).db.users, u.username = name ∧ u.handle = h)
    -- the authenticator data and its signature
    (had : EncodedAuthData app.env ad raw) (hrp : RpHashOk app.env raw "localhost")
    (hup : FlagSet raw 0) (hsig : SignedBy app.env k sig (raw ++ app.env.sha256 cdj))
    (hcount : ∀ m i' b, Earlier (lockedAnswer app (allGuards app) reqs) sched i m →
      AuthenticatedWith (lockedAnswer app (allGuards app) reqs) app reqs m i' c.rawId b →
      b < ad.signCount)
    (hinitial : ∀ m i' b, Earlier (lockedAnswer app (allGuards app) reqs) sched i m →
      BegunWith (lockedAnswer app (allGuards app) reqs) app reqs m i' c.rawId b → b ≠ 0 →
      b < ad.signCount) : r = success := by
  have L := lockOrder_lin app (allGuards app) reqs
  obtain ⟨p, q, hs, hr⟩ := (L.ans_iff _ _ _).mp hans
  rw [hreq] at hr
  obtain ⟨⟨ky, v, hv⟩, hj⟩ := hi
  obtain ⟨a, b, -, ho, hrep⟩ := L.first hm hv hs
  obtain ⟨f', t', n', c', cdj', ob', o', raw', acd', g1, g2, g3⟩ := hreg
  obtain ⟨a', b', -, ho', hrep'⟩ := L.first hm' g2 hs
  rw [← hr]
  refine C84_login codec json ho ⟨⟨ky, v, hrep⟩, hj⟩ ht ?_ ho'
    ⟨f', t', n', c', cdj', ob', o', raw', acd', g1, hrep', g3⟩ hf hresp hcdj hch ?_ had hrp hup hsig ?_ ?_
  · rintro pre e t' c' name' ho ⟨hsucc, hrest⟩
    obtain ⟨m', i', hm', rfl, ha⟩ := L.occurred hs ho
    exact hunused m' i' t' c' name' hm' ⟨hsucc ▸ ha, hrest⟩
  · intro h hh
    obtain ⟨m, hm, hfree, u, hu, hrest⟩ := hhandle h hh
    refine ⟨u, ?_, hrest⟩
    rw [(lockInv m).free hfree] at hu
    obtain ⟨x, rfl⟩ := L.prefix_of hm hs
    rw [guardedRun_db] at hu ⊢
    obtain ⟨more, e, -⟩ := servedOf_append (app := app) (gs := allGuards app)
      ((lockOrder app (allGuards app) reqs m).map reqs) (x.map reqs)
    rw [List.map_append, e]
    obtain ⟨us, hus⟩ := (run_prefix app _ more).1
    rw [hus]
    exact List.mem_append_left _ hu
  · rintro pre e b ho ⟨f', t', n', c', name', g1, g2, g3⟩
    obtain ⟨m', i', hm', rfl, ha⟩ := L.occurred hs ho
    exact hcount m' i' b hm' ⟨f', t', n', c', name', g1, g2 ▸ ha, g3⟩
  · rintro pre e b ho ⟨f', t', n', c', name', g1, g2, g3⟩
    obtain ⟨m', i', hm', rfl, ha⟩ := L.occurred hs ho
    exact hinitial m' i' b hm' ⟨f', t', n', c', name', g1, g2 ▸ ha, g3⟩

/-! ## Every request is answered -/

/-- How often a request still goes on, at most. -/
noncomputable def Phase.left : Phase → Nat
  | .waiting => 8
  | .serving t => sInf { n | Within n t } + 1
  | .answered _ => 0
  | .lost => 0

/-- The request has been answered or was cut off. -/
def Phase.Over (p : Phase) : Prop := (∃ r, p = .answered r) ∨ p = .lost

theorem left_go {s : LockedServer ι} (hw : ∀ i t, s.phases i = .serving t → ∃ n, Within n t) (i : ι) :
    (s.go app gs reqs i = s ∧ ((s.phases i).Over ∨ s.phases i = .waiting ∧ s.holder ≠ none)) ∨
    (((s.go app gs reqs i).phases i).left < (s.phases i).left ∧
      (∀ j, j ≠ i → (s.go app gs reqs i).phases j = s.phases j) ∧
      ∀ t, (s.go app gs reqs i).phases i = .serving t → ∃ n, Within n t) := by
  cases hp : s.phases i with
  | answered r => exact Or.inl ⟨by simp [LockedServer.go, hp], Or.inl (Or.inl ⟨r, rfl⟩)⟩
  | lost => exact Or.inl ⟨by simp [LockedServer.go, hp], Or.inl (Or.inr rfl)⟩
  | waiting =>
    cases hh : s.holder with
    | some j => exact Or.inl ⟨by simp [LockedServer.go, hp, hh], Or.inr ⟨rfl, by simp⟩⟩
    | none =>
      right
      cases hr : refusedBy gs s.log s.db (reqs i) with
      | some m =>
        have e : s.go app gs reqs i = s.put i (.answered (.text m 400)) := by
          simp [LockedServer.go, hp, hh, hr]
        rw [e]
        refine ⟨by simp [LockedServer.put, Phase.left], fun j hj => by simp [LockedServer.put, hj], ?_⟩
        intro t ht
        simp [LockedServer.put] at ht
      | none =>
        have e : s.go app gs reqs i = { s.put i (.serving (task app (reqs i))) with
            holder := some i, saved := s.db } := by
          simp [LockedServer.go, hp, hh, hr]
        rw [e]
        refine ⟨?_, fun j hj => by simp [LockedServer.put, hj], ?_⟩
        · have : sInf { n | Within n (task app (reqs i)) } ≤ 6 := Nat.sInf_le (within_task app (reqs i))
          simp only [LockedServer.put, if_true, Phase.left]
          omega
        · intro t ht
          simp only [LockedServer.put, if_true, Phase.serving.injEq] at ht
          exact ⟨6, ht ▸ within_task app (reqs i)⟩
  | serving t =>
    right
    by_cases hd : ∃ r, t = .done r
    · obtain ⟨r, rfl⟩ := hd
      have e : s.go app gs reqs i = { s.put i (.answered r) with
          holder := none, log := s.log ++ [(reqs i, r)] } := by
        simp [LockedServer.go, hp]
      rw [e]
      refine ⟨by simp [LockedServer.put, Phase.left], fun j hj => by simp [LockedServer.put, hj], ?_⟩
      intro t ht
      simp [LockedServer.put] at ht
    · have e : s.go app gs reqs i = { s.put i (.serving (t.step s.db).1) with db := (t.step s.db).2 } := by
        cases t with
        | done r => exact absurd ⟨r, rfl⟩ hd
        | _ => simp [LockedServer.go, hp]
      rw [e]
      have hw' := Nat.sInf_mem (s := { n | Within n t }) (hw i t hp)
      have hpos : ∃ n, sInf { n | Within n t } = n + 1 := by
        cases hn : sInf { n | Within n t } with
        | zero =>
          rw [hn] at hw'
          exact absurd (within_zero hw') hd
        | succ n => exact ⟨n, rfl⟩
      obtain ⟨n, hn⟩ := hpos
      rw [hn] at hw'
      have hstep : Within n (t.step s.db).1 := Within.step hw'
      refine ⟨?_, fun j hj => by simp [LockedServer.put, hj], ?_⟩
      · have : sInf { n | Within n (t.step s.db).1 } ≤ n := Nat.sInf_le hstep
        simp only [LockedServer.put, if_true, Phase.left, hn]
        omega
      · intro t' ht
        simp only [LockedServer.put, if_true, Phase.serving.injEq] at ht
        exact ⟨n, ht ▸ hstep⟩

theorem left_cut (s : LockedServer ι) (i : ι) : (s.cut i = s ∧ (s.phases i).Over) ∨
    (((s.cut i).phases i).left < (s.phases i).left ∧
      (∀ j, j ≠ i → (s.cut i).phases j = s.phases j) ∧ (s.cut i).phases i = .lost) := by
  cases hp : s.phases i with
  | answered r => exact Or.inl ⟨by simp [LockedServer.cut, hp], Or.inl ⟨r, rfl⟩⟩
  | lost => exact Or.inl ⟨by simp [LockedServer.cut, hp], Or.inr rfl⟩
  | waiting =>
    right
    have e : s.cut i = s.put i .lost := by simp [LockedServer.cut, hp]
    rw [e]
    exact ⟨by simp [LockedServer.put, Phase.left], fun j hj => by simp [LockedServer.put, hj],
      by simp [LockedServer.put]⟩
  | serving t =>
    right
    have e : s.cut i = { s.put i .lost with holder := none, db := s.saved } := by
      simp [LockedServer.cut, hp]
    rw [e]
    exact ⟨by simp [LockedServer.put, Phase.left], fun j hj => by simp [LockedServer.put, hj],
      by simp [LockedServer.put]⟩

theorem serving_within (sched : List (Action ι)) : ∀ i t,
    (serveLocked app gs reqs sched).phases i = .serving t → ∃ n, Within n t := by
  induction sched using List.reverseRecOn with
  | nil =>
    intro i t h
    cases h
  | append_singleton s a ih =>
    intro i t h
    rw [serveLocked_snoc] at h
    cases a with
    | go j =>
      rcases left_go (app := app) (gs := gs) (reqs := reqs) ih j with ⟨e, -⟩ | ⟨-, h1, h2⟩
      · rw [LockedServer.act, e] at h
        exact ih i t h
      · by_cases hij : i = j
        · subst hij
          exact h2 t h
        · rw [LockedServer.act, h1 i hij] at h
          exact ih i t h
    | cut j =>
      rcases left_cut (serveLocked app gs reqs s) j with ⟨e, -⟩ | ⟨-, h1, h2⟩
      · rw [LockedServer.act, e] at h
        exact ih i t h
      · by_cases hij : i = j
        · subst hij
          rw [LockedServer.act, h2] at h
          cases h
        · rw [LockedServer.act, h1 i hij] at h
          exact ih i t h

/-- Going on does not lose a request. -/
theorem go_lost {s : LockedServer ι} {i j : ι} (h : (s.go app gs reqs j).phases i = .lost) :
    s.phases i = .lost := by
  unfold LockedServer.go at h
  split at h
  · split at h
    · exact h
    · split at h <;> simp only [LockedServer.put] at h <;> split at h <;> first | exact h | cases h
  · simp only [LockedServer.put] at h
    split at h <;> first | exact h | cases h
  · simp only [LockedServer.put] at h
    split at h <;> first | exact h | cases h
  · exact h
  · exact h

/-- Only requests that were cut off are lost. -/
theorem lost_cut (sched : List (Action ι)) (i : ι)
    (h : (serveLocked app gs reqs sched).phases i = .lost) : .cut i ∈ sched := by
  induction sched using List.reverseRecOn with
  | nil => cases h
  | append_singleton s a ih =>
    rw [serveLocked_snoc] at h
    cases a with
    | cut j =>
      by_cases hij : i = j
      · subst hij
        simp
      · rcases left_cut (serveLocked app gs reqs s) j with ⟨e, -⟩ | ⟨-, h1, -⟩
        · rw [LockedServer.act, e] at h
          exact List.mem_append_left _ (ih h)
        · rw [LockedServer.act, h1 i hij] at h
          exact List.mem_append_left _ (ih h)
    | go j => exact List.mem_append_left _ (ih (go_lost h))

/-- Only requests that went on are answered. -/
theorem answered_gone (sched : List (Action ι)) {i : ι} {r : Reply}
    (h : lockedAnswer app gs reqs sched i = some r) : .go i ∈ sched := by
  have key : ∀ sched : List (Action ι), (serveLocked app gs reqs sched).phases i = .waiting ∨
      (serveLocked app gs reqs sched).phases i = .lost ∨ .go i ∈ sched := by
    intro sched
    induction sched using List.reverseRecOn with
    | nil => exact Or.inl rfl
    | append_singleton s a ih =>
      rw [serveLocked_snoc]
      have same : ∀ {s' : LockedServer ι}, s'.phases i = (serveLocked app gs reqs s).phases i →
          s'.phases i = .waiting ∨ s'.phases i = .lost ∨ .go i ∈ s ++ [a] := by
        intro s' h
        rw [h]
        exact ih.imp_right fun h => h.imp_right (List.mem_append_left _)
      by_cases hi : a = .go i ∨ a = .cut i
      · rcases hi with rfl | rfl
        · simp
        · rcases left_cut (serveLocked app gs reqs s) i with ⟨e, -⟩ | ⟨-, -, h⟩
          · exact same (by rw [LockedServer.act, e])
          · exact Or.inr (Or.inl h)
      · cases a with
        | go j =>
          have hij : i ≠ j := fun h => hi (Or.inl (h ▸ rfl))
          rcases left_go (app := app) (gs := gs) (reqs := reqs) (serving_within s) j with ⟨e, -⟩ | ⟨-, h, -⟩
          · exact same (by rw [LockedServer.act, e])
          · exact same (h i hij)
        | cut j =>
          have hij : i ≠ j := fun h => hi (Or.inr (h ▸ rfl))
          rcases left_cut (serveLocked app gs reqs s) j with ⟨e, -⟩ | ⟨-, h, -⟩
          · exact same (by rw [LockedServer.act, e])
          · exact same (h i hij)
  rw [lockedAnswer_iff] at h
  rcases key sched with hw | hl | hg
  · rw [hw] at h
    cases h
  · rw [hl] at h
    cases h
  · exact hg

/-- How often requests still go on, at most. -/
noncomputable def LockedServer.left [Fintype ι] (s : LockedServer ι) : Nat := ∑ i, (s.phases i).left

theorem left_of [Fintype ι] {s s' : LockedServer ι} {j : ι} (h1 : (s'.phases j).left < (s.phases j).left)
    (h2 : ∀ i, i ≠ j → s'.phases i = s.phases i) : s'.left < s.left := by
  refine Finset.sum_lt_sum (fun i _ => ?_) ⟨j, Finset.mem_univ _, h1⟩
  by_cases hij : i = j
  · subst hij
    exact h1.le
  · rw [h2 i hij]

/-- When something happens, either nothing changes or less is left to do. -/
theorem left_round [Fintype ι] (sched round : List (Action ι)) :
    (serveLocked app gs reqs (sched ++ round) = serveLocked app gs reqs sched ∧ ∀ i, .go i ∈ round →
      ((serveLocked app gs reqs sched).phases i).Over ∨
        (serveLocked app gs reqs sched).phases i = .waiting ∧
        (serveLocked app gs reqs sched).holder ≠ none) ∨
    (serveLocked app gs reqs (sched ++ round)).left < (serveLocked app gs reqs sched).left := by
  induction round using List.reverseRecOn with
  | nil => exact Or.inl ⟨by rw [List.append_nil], by simp⟩
  | append_singleton l a ih =>
    rw [← List.append_assoc, serveLocked_snoc]
    have stay : (serveLocked app gs reqs (sched ++ l)).left ≤ (serveLocked app gs reqs sched).left := by
      rcases ih with ⟨ih, -⟩ | ih
      · rw [ih]
      · exact ih.le
    cases a with
    | go j =>
      simp only [LockedServer.act]
      rcases left_go (app := app) (gs := gs) (reqs := reqs) (serving_within (sched ++ l)) j with
        ⟨e, hb⟩ | ⟨h1, h2, -⟩
      · rw [e]
        rcases ih with ⟨ih1, ih2⟩ | ih
        · rw [ih1] at hb
          refine Or.inl ⟨ih1, fun i hi => ?_⟩
          rcases List.mem_append.mp hi with hi | hi
          · exact ih2 i hi
          · rw [List.mem_singleton, Action.go.injEq] at hi
            exact hi ▸ hb
        · exact Or.inr ih
      · exact Or.inr (lt_of_lt_of_le (left_of h1 h2) stay)
    | cut j =>
      simp only [LockedServer.act]
      rcases left_cut (serveLocked app gs reqs (sched ++ l)) j with ⟨e, -⟩ | ⟨h1, h2, -⟩
      · rw [e]
        rcases ih with ⟨ih1, ih2⟩ | ih
        · refine Or.inl ⟨ih1, fun i hi => ?_⟩
          rcases List.mem_append.mp hi with hi | hi
          · exact ih2 i hi
          · simp at hi
        · exact Or.inr ih
      · exact Or.inr (lt_of_lt_of_le (left_of h1 h2) stay)

/-- C85: whatever the order in which requests go on and are cut off, if each goes on in every
round, all that were not cut off are answered after eight rounds for each. -/
theorem C85_answered [Fintype ι] (rounds : List (List (Action ι)))
    (hall : ∀ round ∈ rounds, ∀ i, .go i ∈ round) (hlen : 8 * Fintype.card ι ≤ rounds.length) {i : ι}
    (hcut : .cut i ∉ rounds.flatten) : ∃ r, lockedAnswer app gs reqs rounds.flatten i = some r := by
  have key : ∀ rounds : List (List (Action ι)), (∀ round ∈ rounds, ∀ i, .go i ∈ round) →
      (∀ i, ((serveLocked app gs reqs rounds.flatten).phases i).Over) ∨
      (serveLocked app gs reqs rounds.flatten).left + rounds.length ≤ 8 * Fintype.card ι := by
    intro rounds
    induction rounds using List.reverseRecOn with
    | nil =>
      intro _
      right
      simp [serveLocked, LockedServer.left, Phase.left, mul_comm]
    | append_singleton rs round ih =>
      intro hall
      have hround : ∀ i, .go i ∈ round := hall round (by simp)
      rw [List.flatten_append, List.flatten_singleton]
      rcases left_round (app := app) (gs := gs) (reqs := reqs) rs.flatten round with ⟨e, hb⟩ | hlt
      · left
        rw [e]
        have inv := lockInv (app := app) (gs := gs) (reqs := reqs) rs.flatten
        intro i
        rcases hb i (hround i) with h | ⟨-, h⟩
        · exact h
        · obtain ⟨j, hj⟩ := Option.ne_none_iff_exists'.mp h
          obtain ⟨t, ht⟩ := inv.held j hj
          rcases hb j (hround j) with (⟨r, h⟩ | h) | ⟨h, -⟩ <;> rw [ht] at h <;> cases h
      · rcases ih fun r hr => hall r (List.mem_append_left _ hr) with h | h
        · exfalso
          have hzero : (serveLocked app gs reqs rs.flatten).left = 0 := by
            refine Finset.sum_eq_zero fun i _ => ?_
            rcases h i with ⟨r, hr⟩ | hr <;> rw [hr] <;> rfl
          omega
        · right
          rw [List.length_append, List.length_singleton]
          omega
  have over : ((serveLocked app gs reqs rounds.flatten).phases i).Over := by
    rcases key rounds hall with h | h
    · exact h i
    · have hzero : (serveLocked app gs reqs rounds.flatten).left = 0 := by omega
      have := (Finset.sum_eq_zero_iff.mp hzero) i (Finset.mem_univ _)
      cases hp : (serveLocked app gs reqs rounds.flatten).phases i with
      | answered r => exact Or.inl ⟨r, rfl⟩
      | lost => exact Or.inr rfl
      | waiting => rw [hp] at this; cases this
      | serving t => rw [hp] at this; cases this
  rcases over with ⟨r, hr⟩ | hl
  · exact ⟨r, lockedAnswer_iff.mpr hr⟩
  · exact absurd (lost_cut _ _ hl) hcut

/-- A request that comes when nobody has the lock and goes on alone is answered, next. -/
theorem served_alone {sched : List (Action ι)} {i : ι}
    (hfree : (serveLocked app gs reqs sched).holder = none)
    (hi : (serveLocked app gs reqs sched).phases i = .waiting) :
    (serveLocked app gs reqs (sched ++ List.replicate 8 (.go i))).holder = none ∧
    lockOrder app gs reqs (sched ++ List.replicate 8 (.go i)) = lockOrder app gs reqs sched ++ [i] ∧
    ∀ j, j ≠ i → (serveLocked app gs reqs (sched ++ List.replicate 8 (.go i))).phases j =
      (serveLocked app gs reqs sched).phases j := by
  have L := lockOrder_lin app gs reqs
  have nobody : ∀ j t, (serveLocked app gs reqs sched).phases j ≠ .serving t := by
    intro j t h
    rw [((lockInv sched).serving j t h).1] at hfree
    cases hfree
  have key : ∀ n, ((serveLocked app gs reqs (sched ++ List.replicate n (.go i))).phases i).left ≤ 8 - n ∧
      (∀ j, j ≠ i → (serveLocked app gs reqs (sched ++ List.replicate n (.go i))).phases j =
        (serveLocked app gs reqs sched).phases j) ∧
      (serveLocked app gs reqs (sched ++ List.replicate n (.go i))).phases i ≠ .lost := by
    intro n
    induction n with
    | zero => simp [hi, Phase.left]
    | succ n ih =>
      obtain ⟨ih1, ih2, ih3⟩ := ih
      rw [List.replicate_succ', ← List.append_assoc]
      have inv := lockInv (app := app) (gs := gs) (reqs := reqs) (sched ++ List.replicate n (.go i))
      have hstep := left_go (app := app) (gs := gs) (reqs := reqs)
        (serving_within (app := app) (gs := gs) (reqs := reqs) (sched ++ List.replicate n (.go i))) i
      rw [serveLocked_snoc]
      refine ⟨?_, ?_, ?_⟩
      · show ((LockedServer.go app gs reqs _ i).phases i).left ≤ _
        rcases hstep with ⟨e, (⟨r, hr⟩ | hr) | ⟨hw, hh⟩⟩ | ⟨h, -⟩
        · rw [e, hr]
          simp [Phase.left]
        · exact absurd hr ih3
        · obtain ⟨j, hj⟩ := Option.ne_none_iff_exists'.mp hh
          obtain ⟨t, ht⟩ := inv.held j hj
          by_cases hji : j = i
          · rw [hji, hw] at ht
            cases ht
          · rw [ih2 j hji] at ht
            exact absurd ht (nobody j t)
        · omega
      · intro j hj
        rw [← ih2 j hj]
        show (LockedServer.go app gs reqs _ i).phases j = _
        rcases hstep with ⟨e, -⟩ | ⟨-, h, -⟩
        · rw [e]
        · exact h j hj
      · exact fun hl => ih3 (go_lost hl)
  obtain ⟨h1, h2, h3⟩ := key 8
  have hans : ∃ r, (serveLocked app gs reqs (sched ++ List.replicate 8 (.go i))).phases i = .answered r := by
    cases hp : (serveLocked app gs reqs (sched ++ List.replicate 8 (.go i))).phases i with
    | answered r => exact ⟨r, rfl⟩
    | lost => exact absurd hp h3
    | waiting => rw [hp] at h1; simp [Phase.left] at h1
    | serving t => rw [hp] at h1; simp [Phase.left] at h1
  obtain ⟨r, hr⟩ := hans
  refine ⟨?_, ?_, h2⟩
  · by_contra hh
    obtain ⟨j, hj⟩ := Option.ne_none_iff_exists'.mp hh
    obtain ⟨t, ht⟩ := (lockInv _).held j hj
    by_cases hji : j = i
    · rw [hji, hr] at ht
      cases ht
    · rw [h2 j hji] at ht
      exact nobody j t ht
  · obtain ⟨rest, hrest⟩ := L.mono sched (List.replicate 8 (.go i))
    have hmem : ∀ sched' j, j ∈ lockOrder app gs reqs sched' ↔
        ∃ r, (serveLocked app gs reqs sched').phases j = .answered r := by
      intro sched' j
      constructor
      · intro hj
        obtain ⟨a, b, hab⟩ := List.append_of_mem hj
        exact ⟨_, ((lockInv sched').answered j _).mpr ⟨a, b, hab, rfl⟩⟩
      · rintro ⟨r, hr⟩
        obtain ⟨a, b, hab, -⟩ := ((lockInv sched').answered j r).mp hr
        rw [hab]
        simp
    have hnd := L.nodup (sched ++ List.replicate 8 (.go i))
    rw [← hrest] at hnd ⊢
    have honly : ∀ j ∈ rest, j = i := by
      intro j hj
      by_contra hji
      have h := (hmem _ j).mp (hrest ▸ List.mem_append_right _ hj)
      rw [h2 j hji] at h
      exact (List.disjoint_of_nodup_append hnd) ((hmem sched j).mpr h) hj
    have hin : i ∈ rest := by
      have h := (hmem _ i).mpr ⟨r, hr⟩
      rw [← hrest] at h
      rcases List.mem_append.mp h with h | h
      · obtain ⟨r', hr'⟩ := (hmem sched i).mp h
        rw [hi] at hr'
        cases hr'
      · exact h
    congr 1
    exact (List.nodup_append.mp hnd).2.1 |> fun hn => by
      match rest, honly, hin, hn with
      | [], _, h, _ => cases h
      | [a], h, _, _ => rw [h a (by simp)]
      | a :: b :: _, h, _, hn =>
        rw [h a (by simp), h b (by simp)] at hn
        simp at hn

/-- A request that takes the lock and is cut off before it goes on is as if it had not come. -/
theorem cut_alone {sched : List (Action ι)} {i : ι}
    (hfree : (serveLocked app gs reqs sched).holder = none)
    (hi : (serveLocked app gs reqs sched).phases i = .waiting)
    (hg : ∀ m, guardedReply app gs ((lockOrder app gs reqs sched).map reqs) (reqs i) ≠ .text m 400) :
    (serveLocked app gs reqs (sched ++ [.go i, .cut i])).holder = none ∧
    lockOrder app gs reqs (sched ++ [.go i, .cut i]) = lockOrder app gs reqs sched ∧
    (serveLocked app gs reqs (sched ++ [.go i])).holder = some i ∧
    ∀ j, j ≠ i → (serveLocked app gs reqs (sched ++ [.go i, .cut i])).phases j =
      (serveLocked app gs reqs sched).phases j := by
  have L := lockOrder_lin app gs reqs
  have inv := lockInv (app := app) (gs := gs) (reqs := reqs) sched
  have hpass : refusedBy gs (serveLocked app gs reqs sched).log (serveLocked app gs reqs sched).db (reqs i) = none := by
    rw [inv.free hfree, inv.log]
    cases hr : refusedBy gs (guardedRun app gs ((lockOrder app gs reqs sched).map reqs)).1
        (guardedRun app gs ((lockOrder app gs reqs sched).map reqs)).2 (reqs i) with
    | none => rfl
    | some m =>
      refine absurd ?_ (hg m)
      rw [guardedReply, guardedStep, hr]
  have e1 : serveLocked app gs reqs (sched ++ [.go i]) =
      { (serveLocked app gs reqs sched).put i (.serving (task app (reqs i))) with
        holder := some i, saved := (serveLocked app gs reqs sched).db } := by
    rw [serveLocked_snoc]
    simp [LockedServer.act, LockedServer.go, hi, hfree, hpass]
  have e2 : serveLocked app gs reqs (sched ++ [.go i, .cut i]) =
      (serveLocked app gs reqs (sched ++ [.go i])).cut i := by
    rw [show sched ++ [.go i, .cut i] = (sched ++ [.go i]) ++ [.cut i] by simp, serveLocked_snoc]
    rfl
  have e3 : serveLocked app gs reqs (sched ++ [.go i, .cut i]) =
      { (serveLocked app gs reqs sched).put i .lost with saved := (serveLocked app gs reqs sched).db } := by
    rw [e2, e1]
    simp only [LockedServer.cut, LockedServer.put, if_true, hfree, LockedServer.mk.injEq, and_true]
    funext j
    by_cases hj : j = i <;> simp [hj]
  refine ⟨by rw [e3]; exact hfree, ?_, by rw [e1], fun j hj => by rw [e3]; exact if_neg hj⟩
  obtain ⟨rest, hrest⟩ := L.mono sched [.go i, .cut i]
  have hmem : ∀ sched' j, j ∈ lockOrder app gs reqs sched' → lockedAnswer app gs reqs sched' j ≠ none := by
    intro sched' j hj h
    exact L.none_iff.mp h hj
  cases rest with
  | nil => rw [← hrest, List.append_nil]
  | cons j rest =>
    exfalso
    have hnd := L.nodup (sched ++ [.go i, .cut i])
    rw [← hrest] at hnd
    have hj : j ∉ lockOrder app gs reqs sched := fun h => List.disjoint_of_nodup_append hnd h (by simp)
    have h1 : lockedAnswer app gs reqs (sched ++ [.go i, .cut i]) j ≠ none := hmem _ _ (by rw [← hrest]; simp)
    have h2 := L.none_iff.mpr hj
    apply h1
    unfold lockedAnswer at h2 ⊢
    rw [e3]
    by_cases hji : j = i
    · simp [LockedServer.put, hji]
    · simpa [LockedServer.put, hji] using h2

end WebAuthn.Flask
