import Verif.Props.Copies
import Verif.Props.CounterlessDemo

/-!
# A copy of an authenticator, concretely (C106)
-/

namespace WebAuthn.Flask.Run

open Spec Props

/-- The original logs in, then a copy (`true`) of it, both for the first time. -/
def copied : Traced Bool :=
  [(none, e1), (none, ask2), (none, ask0), (none, sign0), (some (false, 1), login16 1), (some (true, 1), login0 1)]

theorem copied_counts : CountingUp app id16 0 copied := by
  intro i d k e h
  match i with
  | 0 | 1 | 2 | 3 => simp [copied] at h
  | 4 =>
    simp only [copied, List.getElem?_cons_succ, List.getElem?_cons_zero, Option.some.injEq, Prod.mk.injEq] at h
    obtain ⟨⟨-, rfl⟩, rfl⟩ := h
    exact ⟨by decide, _, _, _, _, _, rfl, form2 _ _, rfl, counter16 1 challenge2⟩
  | 5 =>
    simp only [copied, List.getElem?_cons_succ, List.getElem?_cons_zero, Option.some.injEq, Prod.mk.injEq] at h
    obtain ⟨⟨-, rfl⟩, rfl⟩ := h
    exact ⟨by decide, _, _, _, _, _, rfl, form3 _ _, rfl, counter16 1 challenge0⟩
  | n + 6 => simp [copied] at h

theorem code_contract (_ : ServedLog) : ContractBy Above app.env (codePackage app.env) := C96_code Demo.refuses_mark

theorem code_serving (_ : ServedLog) : ServingBy Above app.env [.ES256] (codePackage app.env) :=
  C97_code_serves Demo.json _

theorem code_guarded (gs : List Guard) (evs : List Event) (e : Event) :
    packageReply (fun _ => codePackage app.env) app gs evs e = guardedReply app gs evs e :=
  C96_same evs e

/-- C106: the original is accepted, and the copy refused, behind all checks. -/
theorem C106_instance : AdmittedAt (guardedReply app (appGuards app)) copied 4 false 1 ∧
    RefusedAt (guardedReply app (appGuards app)) copied 5 := by
  have h4 : AdmittedAt (guardedReply app (appGuards app)) copied 4 false 1 :=
    ⟨_, rfl, (code_guarded _ _ _).symm.trans
      (zero_login above_ascending code_contract code_serving (fun _ h => h) 1)⟩
  refine ⟨h4, ((C106_guarded Demo.codec Demo.json _).noticed copied_counts (i := 4) (j := 5) (by decide) rfl rfl
    ).resolve_left ?_⟩
  rintro ⟨d, k, e, h, hr⟩
  obtain ⟨e', h', hr'⟩ := h4
  rw [h] at h'
  cases h'
  exact hr hr'

/-- The original logs in twice. -/
def single : Traced Unit :=
  [(none, e1), (none, ask2), (none, ask0), (none, sign0), (some ((), 1), login16 1)]

theorem single_one : OneCopy app id16 0 (single ++ [(some ((), 2), login0 2)]) where
  counts := by
    intro i d k e h
    match i with
    | 0 | 1 | 2 | 3 => simp [single] at h
    | 4 =>
      simp only [single, List.cons_append, List.nil_append, List.getElem?_cons_succ, List.getElem?_cons_zero,
        Option.some.injEq, Prod.mk.injEq] at h
      obtain ⟨⟨-, rfl⟩, rfl⟩ := h
      exact ⟨by decide, _, _, _, _, _, rfl, form2 _ _, rfl, counter16 1 challenge2⟩
    | 5 =>
      simp only [single, List.cons_append, List.nil_append, List.getElem?_cons_succ, List.getElem?_cons_zero,
        Option.some.injEq, Prod.mk.injEq] at h
      obtain ⟨⟨-, rfl⟩, rfl⟩ := h
      exact ⟨by decide, _, _, _, _, _, rfl, form3 _ _, rfl, counter16 2 challenge0⟩
    | n + 6 => simp [single] at h
  only := by
    rintro i e h m ⟨f, t, n, c, name, rfl, -⟩
    match i with
    | 0 | 1 | 2 | 3 => simp [single, e1, ask2, ask0, sign0] at h
    | 4 | 5 => simp [single] at h
    | n + 6 => simp [single] at h
  inOrder := by
    intro i j k k' e e' hij h h'
    match i with
    | 0 | 1 | 2 | 3 => simp [single] at h
    | 4 =>
      match j with
      | 0 | 1 | 2 | 3 | 4 => omega
      | 5 =>
        simp only [single, List.cons_append, List.nil_append, List.getElem?_cons_succ, List.getElem?_cons_zero,
          Option.some.injEq, Prod.mk.injEq] at h h'
        obtain ⟨⟨-, rfl⟩, -⟩ := h
        obtain ⟨⟨-, rfl⟩, -⟩ := h'
        decide
      | n + 6 => simp [single] at h'
    | 5 =>
      match j with
      | 0 | 1 | 2 | 3 | 4 | 5 => omega
      | n + 6 => simp [single] at h'
    | n + 6 => simp [single] at h

/-- C106: the original alone is served twice (the hypotheses of `C106_one_copy`), behind all checks. -/
theorem C106_instance_one_copy :
    packageReply (fun _ => codePackage app.env) app (appGuards app) [e1, ask2, ask0, sign0, login16 1] (login0 2) =
      success := by
  have hs : eventsIn single = [e1, ask2, ask0, sign0, login16 1] := rfl
  have := C106_one_copy (app := app) (gs := appGuards app) (pkgs := fun _ => codePackage app.env) (h := single) (k := 2)
    (m := 0) (f := formOf "3" (authCredential16 2 challenge0) "ada") (now := 9500)
    (c := authCredential16 2 challenge0) (ad := authAd 2)
    above_ascending (fun _ _ h => h) code_contract Demo.codec (fun _ h => h) code_serving single_one
  rw [hs] at this
  refine this (zero_honest3 above_ascending code_contract code_serving fun _ h => h) ?_
  intro pre e m h hb
  rcases occurs_snoc_cases (evs := [e1, ask2, ask0, sign0]) h with h | ⟨-, rfl⟩
  · exact (zero_begins h hb).le
  · obtain ⟨f, t, n, c, name, he, -⟩ := hb
    cases he

/-- The copy was used elsewhere in between. -/
def elsewhere : Traced Bool :=
  [(none, e1), (none, ask2), (none, ask0), (none, sign0), (some (false, 1), login16 1), (some (true, 1), login0 2)]

theorem elsewhere_counts : CountingElsewhere app id16 0 elsewhere where
  above := by
    intro i d k e h
    match i with
    | 0 | 1 | 2 | 3 => simp [elsewhere] at h
    | 4 =>
      simp only [elsewhere, List.getElem?_cons_succ, List.getElem?_cons_zero, Option.some.injEq, Prod.mk.injEq] at h
      obtain ⟨⟨-, rfl⟩, rfl⟩ := h
      exact ⟨by decide, 1, by decide, _, _, _, _, _, rfl, form2 _ _, rfl, counter16 1 challenge2⟩
    | 5 =>
      simp only [elsewhere, List.getElem?_cons_succ, List.getElem?_cons_zero, Option.some.injEq, Prod.mk.injEq] at h
      obtain ⟨⟨-, rfl⟩, rfl⟩ := h
      exact ⟨by decide, 2, by decide, _, _, _, _, _, rfl, form3 _ _, rfl, counter16 2 challenge0⟩
    | n + 6 => simp [elsewhere] at h
  up := by
    intro i j d k k' e e' c c' hij h h'
    match i with
    | 0 | 1 | 2 | 3 => simp [elsewhere] at h
    | 4 =>
      match j with
      | 0 | 1 | 2 | 3 | 4 => omega
      | 5 =>
        simp only [elsewhere, List.getElem?_cons_succ, List.getElem?_cons_zero, Option.some.injEq, Prod.mk.injEq] at h h'
        obtain ⟨⟨rfl, -⟩, -⟩ := h
        exact absurd h'.1.1 (by decide)
      | n + 6 => simp [elsewhere] at h'
    | 5 =>
      match j with
      | 0 | 1 | 2 | 3 | 4 | 5 => omega
      | n + 6 => simp [elsewhere] at h'
    | n + 6 => simp [elsewhere] at h

/-- C106: copies that are used elsewhere, too, need not be noticed: here the original and a copy are
used once each, and both are accepted. -/
theorem C106_elsewhere : ¬ ∀ (app : App), CodecLaws app.env → JsonLaw app.env →
    ∀ (gs : List Guard) (D : Type) (id : Bytes) (m : Nat) (h : Traced D), CountingElsewhere app id m h →
    ∀ (i j : Nat) (d d' : D) (k : Nat) (e e' : Event), d ≠ d' → h[i]? = some (some (d, k), e) →
      h[j]? = some (some (d', k), e') →
      RefusedAt (guardedReply app gs) h i ∨ RefusedAt (guardedReply app gs) h j := by
  intro H
  rcases H app Demo.codec Demo.json (appGuards app) Bool id16 0 elsewhere elsewhere_counts 4 5 false true 1 _ _
    (by decide) rfl rfl with h | h
  · obtain ⟨d, k, e, h, hr⟩ := h
    cases h
    exact hr ((code_guarded _ _ _).symm.trans
      (zero_login above_ascending code_contract code_serving (fun _ h => h) 1))
  · obtain ⟨d, k, e, h, hr⟩ := h
    cases h
    exact hr ((code_guarded _ _ _).symm.trans C106_instance_one_copy)

end WebAuthn.Flask.Run
