import Verif.Spec.Restore
import Verif.Props.Guards

/-!
# Backups of the database are put back (C101)
-/

namespace WebAuthn.Flask

open WebAuthn.Spec WebAuthn.Props

section
variable {σ : Type} {next : Nat → Event → σ → σ} {back : σ → σ} {init : σ}

theorem copies_snoc (steps : List Step) (s : Step) : copies next back init (steps ++ [s]) =
    copies next back init steps ++ [match s with
      | .request e => next ((copies next back init steps).length - 1) e (latest next back init steps)
      | .restore n => back ((copies next back init steps).getD n (latest next back init steps))] := by
  simp only [copies, List.foldl_append, List.foldl_cons, List.foldl_nil, latest]
  rfl

theorem copies_length (steps : List Step) : (copies next back init steps).length = steps.length + 1 := by
  induction steps using List.reverseRecOn with
  | nil => rfl
  | append_singleton l a ih => rw [copies_snoc]; simp [ih]

theorem latest_nil : latest next back init [] = init := rfl

theorem latest_request (steps : List Step) (e : Event) :
    latest next back init (steps ++ [.request e]) = next steps.length e (latest next back init steps) := by
  rw [latest, copies_snoc]
  simp [copies_length]

theorem copies_getElem (steps : List Step) {n : Nat} (h : n ≤ steps.length) :
    (copies next back init steps)[n]? = some (latest next back init (steps.take n)) := by
  induction steps using List.reverseRecOn with
  | nil =>
    obtain rfl : n = 0 := by simpa using h
    rfl
  | append_singleton l a ih =>
    rcases Nat.lt_or_ge l.length n with hn | hn
    · obtain rfl : n = (l ++ [a]).length := by
        simp only [List.length_append, List.length_singleton] at h ⊢
        omega
      rw [List.take_length, latest, List.getLastD_eq_getLast?, List.getLast?_eq_getElem?, copies_length,
        Nat.add_sub_cancel]
      rw [List.getElem?_eq_getElem (by rw [copies_length]; omega)]
      rfl
    · rw [copies_snoc, List.getElem?_append_left (by rw [copies_length]; omega), ih hn,
        List.take_append_of_le_length hn]

theorem latest_restore (steps : List Step) (n : Nat) :
    latest next back init (steps ++ [.restore n]) = back (latest next back init (steps.take n)) := by
  rw [latest, copies_snoc]
  simp only [List.getLastD_concat]
  rcases Nat.lt_or_ge steps.length n with hn | hn
  · rw [List.take_of_length_le hn.le, List.getD_eq_getElem?_getD, List.getElem?_eq_none (by
      rw [copies_length]; omega)]
    rfl
  · rw [List.getD_eq_getElem?_getD, copies_getElem steps hn]
    rfl

end

/-- The requests that stand, with their numbers. -/
def known : List Step → List (Nat × Event) := latest (fun i e l => l ++ [(i, e)]) id []

theorem known_request (steps : List Step) (e : Event) :
    known (steps ++ [.request e]) = known steps ++ [(steps.length, e)] := latest_request steps e

theorem known_restore (steps : List Step) (n : Nat) :
    known (steps ++ [.restore n]) = known (steps.take n) := latest_restore steps n

/-- Induction over what stands. -/
theorem step_induction {P : List Step → Prop} (nil : P [])
    (request : ∀ steps e, P steps → P (steps ++ [.request e]))
    (restore : ∀ steps n, P (steps.take n) → P (steps ++ [.restore n])) (steps : List Step) : P steps := by
  induction h : steps.length using Nat.strong_induction_on generalizing steps with
  | _ m ih =>
    rcases List.eq_nil_or_concat steps with rfl | ⟨l, s, rfl⟩
    · exact nil
    · rw [List.concat_eq_append] at h ⊢
      rw [List.length_append, List.length_singleton] at h
      cases s with
      | request e => exact request l e (ih l.length (by omega) l rfl)
      | restore n =>
        refine restore l n (ih (l.take n).length ?_ _ rfl)
        rw [List.length_take]
        omega

theorem restoredRun_known (app : App) (steps : List Step) :
    restoredRun app steps = run app ((known steps).map Prod.snd) := by
  induction steps using step_induction with
  | nil => rfl
  | request steps e ih =>
    rw [known_request, List.map_append, List.map_singleton, run_snoc, ← ih]
    exact latest_request steps e
  | restore steps n ih =>
    rw [known_restore, ← ih]
    exact latest_restore steps n

/-- What was known when the request came. -/
theorem known_split {steps : List Step} {pre post : List (Nat × Event)} {i : Nat} {e : Event}
    (h : known steps = pre ++ (i, e) :: post) :
    RequestAt steps i e ∧ known (steps.take i) = pre := by
  induction steps using step_induction generalizing post with
  | nil =>
    rw [show known [] = [] from rfl] at h
    simp at h
  | request steps a ih =>
    rw [known_request] at h
    rcases List.eq_nil_or_concat post with rfl | ⟨post, x, rfl⟩
    · obtain ⟨h1, h2⟩ := List.append_inj' h rfl
      simp only [List.cons.injEq, Prod.mk.injEq, and_true] at h2
      obtain ⟨rfl, rfl⟩ := h2
      exact ⟨by simp [RequestAt], by simpa using h1⟩
    · rw [List.concat_eq_append, ← List.cons_append, ← List.append_assoc] at h
      obtain ⟨h1, -⟩ := List.append_inj' h rfl
      obtain ⟨h2, h3⟩ := ih h1
      have hi : i < steps.length := (List.getElem?_eq_some_iff.mp h2).1
      refine ⟨?_, ?_⟩
      · rw [RequestAt, List.getElem?_append_left hi]
        exact h2
      · rw [List.take_append_of_le_length hi.le]
        exact h3
  | restore steps n ih =>
    rw [known_restore] at h
    obtain ⟨h2, h3⟩ := ih h
    have hi := (List.getElem?_eq_some_iff.mp h2).1
    rw [List.length_take] at hi
    rw [RequestAt, List.getElem?_take, if_pos (by omega)] at h2
    rw [List.take_take, Nat.min_eq_left (by omega)] at h3
    refine ⟨?_, ?_⟩
    · rw [RequestAt, List.getElem?_append_left (by omega)]
      exact h2
    · rw [List.take_append_of_le_length (by omega)]
      exact h3

theorem stands_known {steps : List Step} {i : Nat} : Stands steps i ↔ ∃ e, (i, e) ∈ known steps := by
  constructor
  · intro h
    induction h with
    | now steps e => exact ⟨e, by rw [known_request]; simp⟩
    | later steps e i _ ih =>
      obtain ⟨e', ih⟩ := ih
      exact ⟨e', by rw [known_request]; exact List.mem_append_left _ ih⟩
    | restored steps n i _ ih =>
      rw [known_restore]
      exact ih
  · rintro ⟨e, h⟩
    induction steps using step_induction with
    | nil =>
      rw [show known [] = [] from rfl] at h
      cases h
    | request steps a ih =>
      rw [known_request] at h
      rcases List.mem_append.mp h with h | h
      · exact .later _ _ _ (ih h)
      · obtain ⟨rfl, rfl⟩ := Prod.mk.inj (List.mem_singleton.mp h)
        exact .now _ _
    | restore steps n ih =>
      rw [known_restore] at h
      exact .restored _ _ _ (ih h)

theorem known_sorted (steps : List Step) : (known steps).Pairwise fun x y => x.1 < y.1 := by
  induction steps using step_induction with
  | nil => exact List.Pairwise.nil
  | request steps a ih =>
    rw [known_request, List.pairwise_append]
    refine ⟨ih, List.pairwise_singleton _ _, ?_⟩
    rintro ⟨i, e⟩ hx y hy
    obtain rfl := List.mem_singleton.mp hy
    obtain ⟨pre, post, hs⟩ := List.append_of_mem hx
    exact (List.getElem?_eq_some_iff.mp (known_split hs).1).1
  | restore steps n ih =>
    rw [known_restore]
    exact ih

theorem known_mem {steps : List Step} {i : Nat} {e : Event} :
    (i, e) ∈ known steps ↔ Stands steps i ∧ RequestAt steps i e := by
  constructor
  · intro h
    obtain ⟨pre, post, hs⟩ := List.append_of_mem h
    exact ⟨stands_known.mpr ⟨e, h⟩, (known_split hs).1⟩
  · rintro ⟨h1, h2⟩
    obtain ⟨e', h⟩ := stands_known.mp h1
    obtain ⟨pre, post, hs⟩ := List.append_of_mem h
    have := (known_split hs).1
    rw [RequestAt, h2] at this
    cases this
    exact h

theorem restoredReply_known (app : App) (steps : List Step) (e : Event) :
    restoredReply app steps e = reply app ((known steps).map Prod.snd) e := by
  rw [restoredReply, restoredRun_known]
  rfl

/-- C101: the application answers as if what does not stand had never happened. -/
theorem C101_as_if (app : App) (steps : List Step) :
    ∃ l : List (Nat × Event), (l.Pairwise fun x y => x.1 < y.1) ∧
      (∀ i e, (i, e) ∈ l ↔ Stands steps i ∧ RequestAt steps i e) ∧
      ∀ e, restoredReply app steps e = reply app (l.map Prod.snd) e :=
  ⟨known steps, known_sorted steps, fun _ _ => known_mem, restoredReply_known app steps⟩

theorem occurs_known {steps : List Step} {pre : List Event} {e : Event}
    (h : Occurs ((known steps).map Prod.snd) pre e) :
    ∃ i, Stands steps i ∧ RequestAt steps i e ∧ (known (steps.take i)).map Prod.snd = pre := by
  obtain ⟨post, h⟩ := h
  obtain ⟨l1, l2, h1, rfl, h2⟩ := List.map_eq_append_iff.mp h
  obtain ⟨⟨i, e'⟩, l3, rfl, rfl, rfl⟩ := List.map_eq_cons_iff.mp h2
  obtain ⟨g1, g2⟩ := known_split h1
  exact ⟨i, stands_known.mpr ⟨e', by rw [h1]; simp⟩, g1, by rw [g2]⟩

theorem known_occurs {steps : List Step} {i : Nat} {e : Event} (h : Stands steps i)
    (he : RequestAt steps i e) :
    Occurs ((known steps).map Prod.snd) ((known (steps.take i)).map Prod.snd) e := by
  obtain ⟨pre, post, hs⟩ := List.append_of_mem (known_mem.mpr ⟨h, he⟩)
  rw [(known_split hs).2, hs]
  exact ⟨post.map Prod.snd, by simp⟩

section
variable {app : App} {steps : List Step}

theorem registersAt_iff {i : Nat} {id : Bytes} {name : String} {k : CPK} :
    RegistersAt (restoredReply app) app steps i id name k ↔ ∃ e, RequestAt steps i e ∧
      Registers app ((known (steps.take i)).map Prod.snd) e id name k := by
  simp only [RegistersAt, RegistersBy, replyAt, restoredReply_known]
  rfl

theorem issuesAt_iff {i n : Nat} {ch : Bytes} {t : Int} {name : String} :
    IssuesAt (restoredReply app) steps i n ch t name ↔ ∃ e, RequestAt steps i e ∧
      Issues app ((known (steps.take i)).map Prod.snd) e n ch t name := by
  simp only [IssuesAt, Issues, IssuesBy, replyAt, restoredReply_known]

/-- C101: a login is with a credential whose registration by the user stands, and signed with its
key (C49). -/
theorem C101_registered (codec : CodecLaws app.env) {f : Form} {now : Int}
    (h : restoredReply app steps (.authenticationResponse f now) = success) :
    ∃ n c name i k cdj raw sig handle, Submits app f n c name ∧ Stands steps i ∧
      RegistersAt (restoredReply app) app steps i c.rawId name k ∧ c.response = .assertion cdj raw sig handle ∧
      SignedBy app.env k sig (raw ++ app.env.sha256 cdj) := by
  rw [restoredReply_known] at h
  obtain ⟨n, c, name, pre, e, k, cdj, raw, sig, hd, h1, h2, h3, h4, h5⟩ := C49_login codec h
  obtain ⟨i, g1, g2, rfl⟩ := occurs_known h2
  exact ⟨n, c, name, i, k, cdj, raw, sig, hd, h1, g1, registersAt_iff.mpr ⟨e, g2, h3⟩, h4, h5⟩

/-- C101: a success is for a challenge whose issue stands, of at most 60000 ms before (C50). -/
theorem C101_fresh {e : Event} {t : Int} {n : Nat} {c : Credential} {name : String}
    (h : SucceedsBy (fun _ => restoredReply app steps) app [] e t n c name) :
    ∃ i ch t' name' d text, Stands steps i ∧ IssuesAt (restoredReply app) steps i n ch t' name' ∧ t - t' ≤ 60000 ∧
      ClientJson app.env c.response.clientDataJSON d ∧ Lookup d (.str "challenge") (.str text) ∧
      Base64UrlText text ch := by
  obtain ⟨hs, hf⟩ := h
  dsimp only at hs
  rw [restoredReply_known] at hs
  obtain ⟨pre, e', ch, t', name', d, text, h2, h3, h4⟩ :=
    C50_fresh_challenge (show Succeeds app _ e t n c name from ⟨hs, hf⟩)
  obtain ⟨i, g1, g2, rfl⟩ := occurs_known h2
  exact ⟨i, ch, t', name', d, text, g1, issuesAt_iff.mpr ⟨e', g2, h3⟩, h4⟩

/-- C101: of the registrations of an id one stands (C49). -/
theorem C101_once {i i' : Nat} {id : Bytes} {name name' : String} {k k' : CPK} (hi : Stands steps i)
    (h : RegistersAt (restoredReply app) app steps i id name k) (hi' : Stands steps i')
    (h' : RegistersAt (restoredReply app) app steps i' id name' k') : i = i' ∧ name = name' ∧ k = k' := by
  obtain ⟨e, h1, h2⟩ := registersAt_iff.mp h
  obtain ⟨e', g1, g2⟩ := registersAt_iff.mp h'
  obtain ⟨h3, -, h4, h5⟩ := C49_registered_once (known_occurs hi h1) h2 (known_occurs hi' g1) g2
  refine ⟨?_, h4, h5⟩
  -- the numbers of what came before them are the same, and both are next
  obtain ⟨pre, post, hs⟩ := List.append_of_mem (known_mem.mpr ⟨hi, h1⟩)
  obtain ⟨pre', post', hs'⟩ := List.append_of_mem (known_mem.mpr ⟨hi', g1⟩)
  rw [(known_split hs).2, (known_split hs').2] at h3
  have hl : pre.length = pre'.length := by simpa using congrArg List.length h3
  rw [hs] at hs'
  have := (List.append_inj hs' hl).2
  simp only [List.cons.injEq, Prod.mk.injEq] at this
  exact this.1.1

/-- C101: the counter of a login is above those of the logins with the credential that stand
(C47). -/
theorem C101_increasing {i m m' : Nat} {e : Event} {id : Bytes} (hi : Stands steps i)
    (h : AuthenticatesAt (restoredReply app) app steps i id m)
    (h' : AuthenticatesBy (fun _ => restoredReply app steps) app [] e id m') : m < m' := by
  obtain ⟨e1, h1, f, t, n, c, name, rfl, h2, h3, h4, h5⟩ := h
  obtain ⟨f', t', n', c', name', rfl, g2, g3, g4, g5⟩ := h'
  dsimp only [replyAt] at h2 g2
  rw [restoredReply_known] at h2 g2
  obtain ⟨post, ho⟩ := known_occurs hi h1
  rw [ho] at g2
  obtain ⟨x, y, hx, hy, hxy⟩ := C47_flask_counters h2 h3 g2 g3 (h4.trans g4.symm)
  rw [hasCounter_unique h5 hx, hasCounter_unique g5 hy]
  exact hxy

theorem requestAt_mem {i : Nat} {e : Event} (h : RequestAt steps i e) : e ∈ requests steps :=
  List.mem_filterMap.mpr ⟨_, List.mem_of_getElem? h, rfl⟩

theorem sent_known {e : Event} {cdj raw sig : Bytes}
    (h : Sent app ((known steps).map Prod.snd ++ [e]) cdj raw sig) :
    Sent app (requests steps ++ [e]) cdj raw sig := by
  obtain ⟨f, t, n, c, name, handle, hm, h⟩ := h
  refine ⟨f, t, n, c, name, handle, ?_, h⟩
  rcases List.mem_append.mp hm with hm | hm
  · obtain ⟨⟨i, e'⟩, h1, rfl⟩ := List.mem_map.mp hm
    exact List.mem_append_left _ (requestAt_mem (known_mem.mp h1).2)
  · exact List.mem_append_right _ hm

/-- C101: a login with a credential whose registration stands was approved by the holder of the key
(C65), and for a challenge whose issue stands. -/
theorem C101_approved (codec : CodecLaws app.env) (json : JsonLaw app.env) {j : Nat} {f : Form} {now : Int}
    {n : Nat} {c : Credential} {name name' : String} {k : CPK} {acts : Approval → Prop}
    (holder : Holder app.env k (Sent app (requests steps ++ [.authenticationResponse f now])) acts)
    (hj : Stands steps j) (hr : RegistersAt (restoredReply app) app steps j c.rawId name' k)
    (h : restoredReply app steps (.authenticationResponse f now) = success) (hf : Submits app f n c name) :
    name' = name ∧ ∃ a i ch t' name'', acts a ∧ Approves app.env a c ch ∧ Stands steps i ∧
      IssuesAt (restoredReply app) steps i n ch t' name'' ∧ now - t' ≤ 60000 := by
  rw [restoredReply_known] at h
  obtain ⟨e, h1, h2⟩ := registersAt_iff.mp hr
  obtain ⟨h3, a, pre', e', ch, t', name'', h4, h5, h6, h7, h8⟩ :=
    C65_login codec json (holder_mono holder fun _ _ _ => sent_known) (known_occurs hj h1) h2 h hf
  obtain ⟨i, g1, g2, rfl⟩ := occurs_known h6
  exact ⟨h3, a, i, ch, t', name'', h4, h5, g1, issuesAt_iff.mpr ⟨e', g2, h7⟩, h8⟩

/-! ## One approval, one login -/

theorem stands_lt {i : Nat} (h : Stands steps i) : i < steps.length := by
  obtain ⟨e, h⟩ := stands_known.mp h
  exact (List.getElem?_eq_some_iff.mp (known_mem.mp h).2).1

/-- What came after something that stands stands, unless a copy was put back that has the former only. -/
theorem stands_after {p i : Nat} {e : Event} (h : Stands steps p) (hpi : p < i) (hi : RequestAt steps i e) :
    Stands steps i ∨ ∃ q n, steps[q]? = some (.restore n) ∧ n ≤ i ∧ i < q ∧ Stands ((steps.take q).take n) p := by
  induction h with
  | now steps a =>
    have := (List.getElem?_eq_some_iff.mp hi).1
    simp only [List.length_append, List.length_singleton] at this
    omega
  | later steps a p hp ih =>
    rcases Nat.lt_or_ge i steps.length with hl | hl
    · have hi : RequestAt steps i e := by
        rw [RequestAt, List.getElem?_append_left hl] at hi
        exact hi
      rcases ih hpi hi with h | ⟨q, n, h1, h2, h3, h4⟩
      · exact Or.inl (.later _ _ _ h)
      · have hq := (List.getElem?_eq_some_iff.mp h1).1
        exact Or.inr ⟨q, n, by rw [List.getElem?_append_left hq, h1], h2, h3,
          by rw [List.take_append_of_le_length hq.le]; exact h4⟩
    · have := (List.getElem?_eq_some_iff.mp hi).1
      simp only [List.length_append, List.length_singleton] at this
      obtain rfl : i = steps.length := by omega
      exact Or.inl (.now _ _)
  | restored steps n p hp ih =>
    have hl : i < steps.length := by
      rcases Nat.lt_or_ge i steps.length with hl | hl
      · exact hl
      · have := (List.getElem?_eq_some_iff.mp hi).1
        simp only [List.length_append, List.length_singleton] at this
        obtain rfl : i = steps.length := by omega
        simp [RequestAt] at hi
    rw [RequestAt, List.getElem?_append_left hl] at hi
    rcases Nat.lt_or_ge i n with hn | hn
    · rcases ih hpi (by rw [RequestAt, List.getElem?_take, if_pos hn]; exact hi) with h | ⟨q, m, h1, h2, h3, h4⟩
      · exact Or.inl (.restored _ _ _ h)
      · have hq := (List.getElem?_eq_some_iff.mp h1).1
        rw [List.length_take] at hq
        rw [List.getElem?_take, if_pos (by omega)] at h1
        rw [List.take_take (i := q), Nat.min_eq_left (by omega)] at h4
        exact Or.inr ⟨q, m, by rw [List.getElem?_append_left (by omega), h1], h2, h3,
          by rw [List.take_append_of_le_length (by omega)]; exact h4⟩
    · exact Or.inr ⟨steps.length, n, by simp, hn, hl, by simpa using hp⟩

theorem requestAt_take {i j : Nat} {e : Event} (hij : i < j) :
    RequestAt (steps.take j) i e ↔ RequestAt steps i e := by
  rw [RequestAt, List.getElem?_take, if_pos hij, RequestAt]

theorem registersAt_take {i j : Nat} {id : Bytes} {name : String} {k : CPK} (hij : i < j) :
    RegistersAt (restoredReply app) app (steps.take j) i id name k ↔ RegistersAt (restoredReply app) app steps i id name k := by
  simp only [registersAt_iff, requestAt_take hij, List.take_take, Nat.min_eq_left hij.le]

theorem issuesAt_take {i j n : Nat} {ch : Bytes} {t : Int} {name : String} (hij : i < j) :
    IssuesAt (restoredReply app) (steps.take j) i n ch t name ↔ IssuesAt (restoredReply app) steps i n ch t name := by
  simp only [issuesAt_iff, requestAt_take hij, List.take_take, Nat.min_eq_left hij.le]

theorem issuesAt_asked {i n : Nat} {ch : Bytes} {t : Int} {name : String}
    (h : IssuesAt (restoredReply app) steps i n ch t name) : ∃ e, RequestAt steps i e ∧ asked e = some (ch, t) := by
  obtain ⟨e, h1, -, ⟨_, rfl⟩ | rfl⟩ := h <;> exact ⟨_, h1, rfl⟩

/-- Requests for the same bytes are the same. -/
theorem notDrawnAgain_at {i j : Nat} {e e' : Event} {ch : Bytes} {t t' : Int}
    (h : NotDrawnAgain (requests steps)) (hi : RequestAt steps i e) (hj : RequestAt steps j e')
    (ha : asked e = some (ch, t)) (ha' : asked e' = some (ch, t')) : i = j := by
  have key : ∀ {i j : Nat} {e e' : Event} {t t' : Int}, RequestAt steps i e → RequestAt steps j e' →
      asked e = some (ch, t) → asked e' = some (ch, t') → ¬ i < j := by
    intro i j e e' t t' hi hj ha ha' hij
    rw [NotDrawnAgain, requests, List.pairwise_filterMap, List.pairwise_iff_getElem] at h
    obtain ⟨hi1, hi2⟩ := List.getElem?_eq_some_iff.mp hi
    obtain ⟨hj1, hj2⟩ := List.getElem?_eq_some_iff.mp hj
    exact h i j hi1 hj1 hij e (by rw [hi2]) e' (by rw [hj2]) ch t t' ha ha'
  rcases Nat.lt_trichotomy i j with h1 | h1 | h1
  · exact absurd h1 (key hi hj ha ha')
  · exact h1
  · exact absurd h1 (key hj hi ha' ha)

theorem keyLoginAt_unique {k : CPK} {c c' : Credential} {i : Nat} (h : KeyLoginAt (restoredReply app) app steps k c i)
    (h' : KeyLoginAt (restoredReply app) app steps k c' i) : c = c' := by
  obtain ⟨f, t, n, name, j, name1, h1, -, h2, -⟩ := h
  obtain ⟨f', t', n', name', j', name1', g1, -, g2, -⟩ := h'
  rw [RequestAt, h1] at g1
  cases g1
  exact (submits_unique h2 g2).2.1

end

/-- One approval is good for one login, where no login uses a challenge from a copy that was put back
before. -/
theorem one_login {app : App} (codec : CodecLaws app.env) (json : JsonLaw app.env) {steps : List Step} {k : CPK}
    {acts : Approval → Prop} {id : Bytes} (holder : Holder app.env k (Sent app (requests steps)) acts)
    (drawn : ∀ i j e e' ch t t', RequestAt steps i e → RequestAt steps j e' → asked e = some (ch, t) →
      asked e' = some (ch, t') → i = j)
    (apart : ∀ j p f t n c name ch t' name' q m, RequestAt steps j (.authenticationResponse f t) →
      Submits app f n c name → IssuesAt (restoredReply app) steps p n ch t' name' → t - t' ≤ 60000 →
      Stands (steps.take j) p → steps[q]? = some (.restore m) → m < q → q < j → ¬ Stands ((steps.take q).take m) p) :
    OneEach app.env acts (KeyLoginAt (restoredReply app) app steps k) id := by
  classical
  have key : ∀ i, (∃ c, KeyLoginAt (restoredReply app) app steps k c i ∧ c.rawId = id) → ∃ a, acts a ∧
      ∃ c f t n name p t' name'', c.rawId = id ∧ KeyLoginAt (restoredReply app) app steps k c i ∧
        RequestAt steps i (.authenticationResponse f t) ∧
        restoredReply app (steps.take i) (.authenticationResponse f t) = success ∧ Submits app f n c name ∧
        Approves app.env a c a.challenge ∧ p < i ∧ Stands (steps.take i) p ∧
        IssuesAt (restoredReply app) steps p n a.challenge t' name'' ∧ t - t' ≤ 60000 := by
    rintro i ⟨c, hl, rfl⟩
    obtain ⟨f, t, n, name, j, name', h1, h2, h3, h4, h5⟩ := id hl
    have hij : j < i := by
      have := stands_lt h4
      rw [List.length_take] at this
      omega
    have holder' : Holder app.env k (Sent app (requests (steps.take i) ++ [.authenticationResponse f t])) acts := by
      refine holder_mono holder ?_
      rintro cdj raw sig ⟨f', t', n', c', name'', handle, hm, hs⟩
      refine ⟨f', t', n', c', name'', handle, ?_, hs⟩
      rcases List.mem_append.mp hm with hm | hm
      · obtain ⟨s, hs1, hs2⟩ := List.mem_filterMap.mp hm
        exact List.mem_filterMap.mpr ⟨s, List.mem_of_mem_take hs1, hs2⟩
      · rw [List.mem_singleton.mp hm]
        exact requestAt_mem h1
    obtain ⟨-, a, p, ch, t', name'', g1, g2, g3, g4, g5⟩ :=
      C101_approved codec json holder' h4 ((registersAt_take hij).mpr h5) h2 h3
    have hp : p < i := by
      have := stands_lt g3
      rw [List.length_take] at this
      omega
    obtain rfl := g2.challenge
    exact ⟨a, g1, c, f, t, n, name, p, t', name'', rfl, hl, h1, h2, h3, g2, hp, g3, (issuesAt_take hp).mp g4, g5⟩
  have lt : ∀ i j hi hj, i < j → (key i hi).choose ≠ (key j hj).choose := by
    intro i j hi hj hij he
    obtain ⟨-, c, f, t, n, name, p, t', name'', a1, -, a2, a3, a4, a5, a6, a7, a8, -⟩ := (key i hi).choose_spec
    obtain ⟨-, c', f', s, n', name', p', s', name3, b1, -, b2, b3, b4, b5, b6, b7, b8, b9⟩ :=
      (key j hj).choose_spec
    rw [← he] at b5 b8
    obtain ⟨e1, d1, d2⟩ := issuesAt_asked a8
    obtain ⟨e2, d3, d4⟩ := issuesAt_asked b8
    obtain rfl := drawn _ _ _ _ _ _ _ d1 d3 d2 d4
    rcases stands_after b7 a6 ((requestAt_take hij).mpr a2) with h | ⟨q, m, h1, hm, hm', h2⟩
    · rw [restoredReply_known] at a3 b3
      obtain ⟨post, ho⟩ := known_occurs h ((requestAt_take hij).mpr a2)
      rw [List.take_take, Nat.min_eq_left hij.le] at ho
      rw [ho] at b3
      obtain ⟨x, y, ⟨_, _, _, _, x1, x2⟩, ⟨_, _, _, _, y1, y2⟩, hxy⟩ :=
        C47_flask_counters a3 a4 b3 b4 (a1.trans b1.symm)
      obtain ⟨_, _, a10⟩ := a5.response
      obtain ⟨_, _, b10⟩ := b5.response
      rw [x1] at a10
      rw [y1] at b10
      cases a10
      cases b10
      rw [bigEndian_iff] at x2 y2
      omega
    · have hq := (List.getElem?_eq_some_iff.mp h1).1
      rw [List.length_take] at hq
      have hq : q < j := by omega
      have hm : m < q := by omega
      rw [List.getElem?_take, if_pos hq] at h1
      rw [List.take_take (i := q), Nat.min_eq_left hq.le] at h2
      exact apart j p f' s n' c' name' _ s' name3 q m b2 b4 b8 b9 b7 h1 hm hq h2
  refine ⟨fun i => if hi : ∃ c, KeyLoginAt (restoredReply app) app steps k c i ∧ c.rawId = id then some (key i hi).choose else none,
    ?_, ?_⟩
  · intro i c hi hid
    have hi' : ∃ c, KeyLoginAt (restoredReply app) app steps k c i ∧ c.rawId = id := ⟨c, hi, hid⟩
    obtain ⟨h1, c', _, _, _, _, _, _, _, -, h2, -, -, -, h3, -⟩ := (key i hi').choose_spec
    obtain rfl := keyLoginAt_unique hi h2
    exact ⟨_, _, dif_pos hi', h1, h3⟩
  · intro i j c c' hi hid hj hid' he
    have hi' : ∃ c, KeyLoginAt (restoredReply app) app steps k c i ∧ c.rawId = id := ⟨c, hi, hid⟩
    have hj' : ∃ c, KeyLoginAt (restoredReply app) app steps k c j ∧ c.rawId = id := ⟨c', hj, hid'⟩
    simp only [dif_pos hi', dif_pos hj', Option.some.injEq] at he
    rcases Nat.lt_trichotomy i j with h | h | h
    · exact absurd he (lt i j hi' hj' h)
    · exact h
    · exact absurd he.symm (lt j i hj' hi' h)

/-- C101: one approval is good for one login, though copies are put back, where after that nobody
logs in until the challenges in the copy are too old.  Missing: other ways
(`C101_one_login_refuted`). -/
theorem C101_one_login_partial (app : App) (codec : CodecLaws app.env) (json : JsonLaw app.env) :
    OneEachRestored (restoredReply app) app Settled := by
  intro steps k acts id holder drawn settled
  refine one_login codec json holder (fun _ _ _ _ _ _ _ => notDrawnAgain_at drawn) ?_
  intro j p f t n c name ch t' name' q m hj _ hp ht _ hq _ hqj hs
  obtain ⟨e, h1, h2⟩ := issuesAt_asked hp
  have := settled q m p e ch t' j f t hq hs h1 h2 hqj hj
  omega

end WebAuthn.Flask
