import Verif.Props.Repaired

/-!
# The origins of the repaired function, exactly (C37)
-/

namespace WebAuthn.Props

open WebAuthn WebAuthn.Spec

/-- The host text as `urlHostname` computes it. -/
def hostText (hostinfo : List Char) : List Char :=
  match partitionAt '[' hostinfo with
  | (_, some bracketed) => (partitionAt ']' bracketed).1
  | (_, none) => (partitionAt ':' hostinfo).1

theorem hostText_iff {h t : List Char} : HostText h t ↔ t = hostText h := by
  constructor
  · intro hp
    cases hp with
    | alone _ h1 h2 => simp [hostText, partitionAt_of_not_mem h2, partitionAt_of_not_mem h1]
    | withPort _ port h1 h2 h3 =>
      have h4 : '[' ∉ t ++ ':' :: port := by simp [h2, h3]
      simp [hostText, partitionAt_of_not_mem h4, partitionAt_append h1]
    | unclosed pre _ h1 h2 =>
      simp [hostText, partitionAt_append h1, partitionAt_of_not_mem h2]
    | bracketed pre _ post h1 h2 =>
      simp [hostText, partitionAt_append h1, partitionAt_append h2]
  · rintro rfl
    rcases partitionAt_cases '[' h with ⟨h1, hp⟩ | ⟨pre, b, rfl, h1, hp⟩
    · unfold hostText
      rw [hp]
      simp only
      rcases partitionAt_cases ':' h with ⟨h2, hp2⟩ | ⟨host, port, rfl, h2, hp2⟩
      · rw [hp2]; exact .alone h h2 h1
      · rw [hp2]
        simp only [List.mem_append, List.mem_cons, not_or] at h1
        exact .withPort host port h2 h1.1 h1.2.2
    · unfold hostText
      rw [hp]
      simp only
      rcases partitionAt_cases ']' b with ⟨h2, hp2⟩ | ⟨body, m, rfl, h2, hp2⟩
      · rw [hp2]; exact .unclosed pre b h1 h2
      · rw [hp2]
        simpa using HostText.bracketed pre body m h1 h2

/-- The lower-casing as `urlHostname` computes it. -/
def hostLower (s : List Char) : List Char :=
  match partitionAt '%' s with
  | (h, some zone) => h.map toLower ++ '%' :: zone
  | (h, none) => h.map toLower

theorem hostLower_iff {s host : List Char} : HostLower s host ↔ host = hostLower s := by
  constructor
  · rintro (⟨h1, h2⟩ | ⟨h, l, zone, rfl, h1, h2, rfl⟩)
    · rw [hostLower, partitionAt_of_not_mem h1]
      exact (lowerCase_iff.mp h2).symm
    · rw [hostLower, partitionAt_append h1]
      simp only
      rw [lowerCase_iff.mp h2]
  · rintro rfl
    rcases partitionAt_cases '%' s with ⟨h1, hp⟩ | ⟨h, zone, rfl, h1, hp⟩
    · unfold hostLower
      rw [hp]
      exact Or.inl ⟨h1, lowerCase_iff.mpr rfl⟩
    · unfold hostLower
      rw [hp]
      exact Or.inr ⟨h, _, zone, rfl, h1, lowerCase_iff.mpr rfl, rfl⟩

theorem hostOf_iff {netloc host : List Char} : HostOf netloc host ↔ Repaired.urlHostname netloc = host := by
  have e : Repaired.urlHostname netloc = hostLower (hostText (afterLastAt netloc)) := rfl
  rw [e]
  constructor
  · rintro ⟨hi, t, h1, h2, h3, h4⟩
    rw [afterLastAt_iff.mpr ⟨h2, h1⟩, ← hostText_iff.mp h3, ← hostLower_iff.mp h4]
  · rintro rfl
    obtain ⟨h1, h2⟩ := afterLastAt_iff.mp (rfl : afterLastAt netloc = _)
    exact ⟨_, _, h2, h1, hostText_iff.mpr rfl, hostLower_iff.mpr rfl⟩

/-- C37 for the repaired function, every text: it accepts the origins that the
package accepts, with the same scheme and port, and with the host that the authority
denotes in place of the authority. -/
theorem C37_repaired_accepted_origins {env : Env} {s : String} {o : Origin} :
    Repaired.parseOrigin env s = .ok o ↔ ∃ netloc, OriginOf env s { o with hostname := netloc } ∧
      HostOf netloc.toList o.hostname.toList := by
  unfold Repaired.parseOrigin
  simp only [bind_ok_iff, pure_eq_ok, Except.ok.injEq]
  constructor
  · rintro ⟨⟨scheme, netloc, port⟩, h, rfl⟩
    exact ⟨netloc, parseOrigin_ok_iff.mp h, hostOf_iff.mpr (by simp)⟩
  · rintro ⟨netloc, h, hh⟩
    refine ⟨_, parseOrigin_ok_iff.mpr h, ?_⟩
    rw [hostOf_iff] at hh
    obtain ⟨scheme, host, port⟩ := o
    simp only [hh, String.ofList_toList]

/-- Two texts are the same origin for the repaired function exactly if they have the
same scheme and port and their authorities denote the same host. -/
theorem C37_repaired_same_origin {env : Env} {s s' : String} {o o' : Origin} (h : OriginOf env s o)
    (h' : OriginOf env s' o') :
    Repaired.parseOrigin env s = Repaired.parseOrigin env s' ↔
      o.scheme = o'.scheme ∧ o.port = o'.port ∧
      ∃ host, HostOf o.hostname.toList host ∧ HostOf o'.hostname.toList host := by
  have e : Repaired.parseOrigin env s =
      .ok { o with hostname := String.ofList (Repaired.urlHostname o.hostname.toList) } :=
    C37_repaired_accepted_origins.mpr ⟨o.hostname, h, hostOf_iff.mpr (by simp)⟩
  have e' : Repaired.parseOrigin env s' =
      .ok { o' with hostname := String.ofList (Repaired.urlHostname o'.hostname.toList) } :=
    C37_repaired_accepted_origins.mpr ⟨o'.hostname, h', hostOf_iff.mpr (by simp)⟩
  rw [e, e']
  simp only [Except.ok.injEq, Origin.mk.injEq, hostOf_iff]
  constructor
  · rintro ⟨h1, h2, h3⟩
    exact ⟨h1, h3, _, rfl, by simpa using (congrArg String.toList h2).symm⟩
  · rintro ⟨h1, h3, host, h4, h5⟩
    exact ⟨h1, by rw [h4, h5], h3⟩

theorem parseOrigin_of {env : Env} {s : String} {rest netloc : List Char} {port : Option Nat}
    (h1 : hasSchemeSep s.toList = true)
    (h2 : splitScheme ((s.toList.dropWhile isC0OrSpace).filter fun c => !isTabOrNewline c) =
      ("https".toList, rest))
    (h3 : splitNetloc env rest = .ok (netloc, [])) (h4 : netloc.all (fun c => c.toNat < 128) = true)
    (h5 : netloc ≠ []) (h6 : urlPort netloc = .ok port) :
    parseOrigin env s = .ok ⟨"https", String.ofList netloc, port.getD 443⟩ := by
  have hu : urlsplit env s.toList = .ok ⟨"https".toList, netloc, [], [], []⟩ := by
    unfold urlsplit
    simp only [h2, h3, ok_bind, partitionAt, h4, Bool.not_true, Bool.false_and, Bool.false_eq_true, if_false,
      Option.getD_none]
  unfold parseOrigin
  rw [h1, if_neg (by simp), hu, ok_bind]
  simp only [ne_eq, not_true_eq_false, decide_false, Bool.or_self, Bool.false_eq_true, if_false, h5, h6, ok_bind]
  rfl

/-- An address in brackets, with and without the default port, and with a user. -/
example (env : Env) (hb : env.bracketOk "::1".toList = true) :
    Repaired.parseOrigin env "https://[::1]" = .ok ⟨"https", "::1", 443⟩ ∧
    Repaired.parseOrigin env "https://[::1]:443" = .ok ⟨"https", "::1", 443⟩ ∧
    Repaired.parseOrigin env "https://user:pw@Example.com:8443" = .ok ⟨"https", "example.com", 8443⟩ := by
  have key : ∀ {s n : String} {o : Origin}, parseOrigin env s = .ok { o with hostname := n } →
      Repaired.urlHostname n.toList = o.hostname.toList → Repaired.parseOrigin env s = .ok o :=
    fun h1 h2 => C37_repaired_accepted_origins.mpr ⟨_, parseOrigin_ok_iff.mp h1, hostOf_iff.mpr h2⟩
  refine ⟨key (n := "[::1]") ?_ (by decide), key (n := "[::1]:443") ?_ (by decide),
    key (n := "user:pw@Example.com:8443") ?_ (by decide)⟩
  · refine parseOrigin_of (rest := "//[::1]".toList) (port := none) (by decide) (by decide) ?_ (by decide)
      (by decide) (by rfl)
    show (if env.bracketOk "::1".toList then _ else _) = _
    rw [if_pos hb]
    rfl
  · refine parseOrigin_of (rest := "//[::1]:443".toList) (port := some 443) (by decide) (by decide) ?_ (by decide)
      (by decide) (by rfl)
    show (if env.bracketOk "::1".toList then _ else _) = _
    rw [if_pos hb]
    rfl
  · exact parseOrigin_of (rest := "//user:pw@Example.com:8443".toList) (port := some 8443) (by decide)
      (by decide) (by rfl) (by decide) (by decide) (by rfl)

end WebAuthn.Props
