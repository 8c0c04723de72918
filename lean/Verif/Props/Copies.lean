import Verif.Spec.Copies
import Verif.Props.Counterless

/-!
# Copies of an authenticator (C106)
-/

namespace WebAuthn.Flask

open WebAuthn WebAuthn.Spec WebAuthn.Props

section Rising

variable {rep : List Event → Event → Reply} {app : App}

theorem assertsWith_by {e : Event} {id : Bytes} {m : Nat} {pre : List Event} (h : AssertsWith app e id m)
    (hr : rep pre e = success) : AuthenticatesBy rep app pre e id m := by
  obtain ⟨f, t, n, c, name, rfl, h1, h2, h3⟩ := h
  exact ⟨f, t, n, c, name, rfl, hr, h1, h2, h3⟩

theorem occurs_take {D : Type} {h : Traced D} {i j : Nat} {x : Option (D × Nat) × Event} (hij : i < j)
    (hi : h[i]? = some x) : Occurs (eventsIn (h.take j)) (eventsIn (h.take i)) x.2 := by
  obtain ⟨hl, rfl⟩ := List.getElem?_eq_some_iff.mp hi
  refine ⟨eventsIn ((h.take j).drop (i + 1)), ?_⟩
  have h1 : h.take j = (h.take j).take i ++ h[i] :: (h.take j).drop (i + 1) := by
    have hl' : i < (h.take j).length := by rw [List.length_take]; omega
    conv_lhs => rw [← List.take_append_drop i (h.take j), List.drop_eq_getElem_cons hl', List.getElem_take]
  rw [List.take_take, Nat.min_eq_left hij.le] at h1
  conv_lhs => rw [h1]
  simp [eventsIn]

/-- C106: where accepted counters rise, except at zero, copies are noticed. -/
theorem C106_noticed
    (rising : ∀ evs pre e e' id m m', Occurs evs pre e → AuthenticatesBy rep app pre e id m →
      AuthenticatesBy rep app evs e' id m' → m < m' ∨ m = 0 ∧ m' = 0) : CopiesNoticed rep app := by
  have later : ∀ {D : Type} {id : Bytes} {m : Nat} {h : Traced D}, CountingUp app id m h →
      ∀ {i j d d' k k'}, i < j → AdmittedAt rep h i d k → AdmittedAt rep h j d' k' → k < k' := by
    rintro D id m h hc i j d d' k k' hij ⟨e, he, hs⟩ ⟨e', he', hs'⟩
    obtain ⟨h0, ha⟩ := hc i d k e he
    obtain ⟨-, ha'⟩ := hc j d' k' e' he'
    have := rising _ _ _ _ _ _ _ (occurs_take hij he) (assertsWith_by ha hs) (assertsWith_by ha' hs')
    omega
  refine ⟨later, ?_, ?_⟩
  · intro D id m h hc i j d d' k e e' hd he he'
    by_contra hno
    rw [not_or] at hno
    have hi : AdmittedAt rep h i d k := ⟨e, he, by_contra fun hs => hno.1 ⟨d, k, e, he, hs⟩⟩
    have hj : AdmittedAt rep h j d' k := ⟨e', he', by_contra fun hs => hno.2 ⟨d', k, e', he', hs⟩⟩
    rcases Nat.lt_trichotomy i j with hij | rfl | hij
    · exact absurd (later hc hij hi hj) (Nat.lt_irrefl _)
    · rw [he] at he'
      simp only [Option.some.injEq, Prod.mk.injEq] at he'
      exact hd he'.1.1
    · exact absurd (later hc hij hj hi) (Nat.lt_irrefl _)
  · intro D id m h hc u hu S hS
    classical
    choose! d k hk using hS
    have hinj : ∀ i ∈ S, ∀ j ∈ S, k i = k j → i = j := by
      intro i hi j hj hij
      rcases Nat.lt_trichotomy i j with h' | h' | h'
      · exact absurd (later hc h' (hk i hi) (hk j hj)) (by omega)
      · exact h'
      · exact absurd (later hc h' (hk j hj) (hk i hi)) (by omega)
    have hmaps : ∀ i ∈ S, k i - 1 ∈ Finset.range u := by
      intro i hi
      obtain ⟨e, he, -⟩ := hk i hi
      have h1 := hu i _ _ e he
      have h2 := (hc i _ _ e he).1
      exact Finset.mem_range.mpr (by omega)
    have := Finset.card_le_card_of_injOn (fun i => k i - 1) hmaps (by
      intro i hi j hj hij
      obtain ⟨e, he, -⟩ := hk i hi
      obtain ⟨e', he', -⟩ := hk j hj
      have h2 := (hc i _ _ e he).1
      have h3 := (hc j _ _ e' he').1
      exact hinj i hi j hj (by simp only at hij; omega))
    rwa [Finset.card_range] at this

end Rising

/-- C106: the application notices copies, … -/
theorem C106_application (app : App) : CopiesNoticed (reply app) app := by
  refine C106_noticed ?_
  rintro evs pre e e' id m m' ⟨post, rfl⟩ ⟨f, t, n, c, name, rfl, h1, h2, rfl, h3⟩
    ⟨f', t', n', c', name', rfl, h1', h2', h4, h3'⟩
  obtain ⟨a, b, ha, hb, hab⟩ := C47_flask_counters h1 h2 h1' h2' h4.symm
  rw [hasCounter_unique h3 ha, hasCounter_unique h3' hb]
  exact Or.inl hab

/-- … so it does behind any checks, … -/
theorem C106_guarded {app : App} (codec : CodecLaws app.env) (json : JsonLaw app.env) (gs : List Guard) :
    CopiesNoticed (guardedReply app gs) app :=
  C106_noticed fun evs pre e e' id m m' h1 h2 h3 =>
    Or.inl ((C84_guarantees codec json gs).increasing evs pre e e' id m m' h1 h2 h3)

section Package

variable {rule : CounterRule} {pkgs : ServedLog → Package} {app : App} {gs : List Guard}

/-- … and with every package that has the rule of WebAuthn for counters. -/
theorem C106_package (con : ∀ log, ContractBy AboveOrZero app.env (pkgs log)) :
    CopiesNoticed (packageReply pkgs app gs) app :=
  C106_noticed fun _ _ _ _ _ _ _ h1 h2 h3 => C98_counters con h1 h2 h3

/-- C106: nobody is refused for a copy that does not exist: if only one authenticator has the
credential, its honest logins succeed. -/
theorem C106_one_copy (asc : Ascending rule) (hrule : ∀ (n : Int) (c : Nat), n < c → rule n c)
    (con : ∀ log, ContractBy rule app.env (pkgs log))
    (codec : CodecLaws app.env) (hgs : ∀ g ∈ gs, g ∈ appGuards app) {algs : List Alg}
    (serving : ∀ log, ServingBy rule app.env algs (pkgs log))
    {h : Traced Unit} {f : Form} {now : Int} {c : Credential} {ad : AuthData} {m k : Nat}
    (hone : OneCopy app c.rawId m (h ++ [(some ((), k), .authenticationResponse f now)]))
    (hlogin : HonestLogin (packageReply pkgs app gs) (packageRun pkgs app gs (eventsIn h)).2.users app (eventsIn h)
      f now c ad)
    (hinitial : ∀ pre e m', Occurs (eventsIn h) pre e →
      BeginsBy (packageReply pkgs app gs) app pre e c.rawId m' → m' ≤ m) :
    packageReply pkgs app gs (eventsIn h) (.authenticationResponse f now) = success := by
  have hlast : (h ++ [(some ((), k), Event.authenticationResponse f now)])[h.length]? =
      some (some ((), k), .authenticationResponse f now) := by simp
  obtain ⟨hk, hlastc⟩ := hone.counts _ _ _ _ hlast
  have hcount : ad.signCount = m + k := by
    obtain ⟨f', t', n', c', name', he, h1, h2, h3⟩ := hlastc
    cases he
    cases hlogin with
    | mk _ _ _ _ _ _ _ h4 h5 _ _ _ h6 =>
      obtain ⟨-, rfl, -⟩ := submits_unique h1 h4
      exact hasCounter_unique ⟨_, _, _, _, h5, (authDataOf_head h6).2.2.2⟩ h3
  refine C98_login asc con codec hgs serving hlogin ?_ ?_
  · rintro pre e m' ⟨post, ho⟩ ⟨f', t', n', c', name', rfl, -, h1, h2, h3⟩
    apply hrule
    -- the event in the history
    have hi : (eventsIn h)[pre.length]? = some (.authenticationResponse f' t') := by rw [ho]; simp
    obtain ⟨⟨tag, e⟩, hi', he⟩ : ∃ x, h[pre.length]? = some x ∧ x.2 = .authenticationResponse f' t' := by
      simpa [eventsIn] using hi
    obtain rfl : e = _ := he
    have hl : pre.length < h.length := (List.getElem?_eq_some_iff.mp hi').1
    have hi2 : (h ++ [(some ((), k), Event.authenticationResponse f now)])[pre.length]? =
        some (tag, .authenticationResponse f' t') := by
      rw [List.getElem?_append_left hl, hi']
    cases tag with
    | none => exact absurd ⟨f', t', n', c', name', rfl, h1, h2, h3⟩ (hone.only _ _ hi2 m')
    | some x =>
      obtain ⟨⟨⟩, k'⟩ := x
      have hlt := hone.inOrder _ _ _ _ _ _ hl hi2 hlast
      obtain ⟨-, f2, t2, n2, c2, name2, he2, h4, -, h6⟩ := hone.counts _ _ _ _ hi2
      cases he2
      obtain ⟨-, rfl, -⟩ := submits_unique h1 h4
      rw [hasCounter_unique h3 h6, hcount]
      exact_mod_cast Nat.add_lt_add_left hlt m
  · intro pre e m' h1 h2 _
    have := hinitial pre e m' h1 h2
    omega

end Package

end WebAuthn.Flask
