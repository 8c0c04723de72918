import Verif.Lemmas.Errors
import Verif.Model.RepairedExtensions
import Verif.Props.DemoRich
import Verif.Props.Failure
import Verif.Props.Parse
import Verif.Spec.Extensions

/-!
# C79, C80: extension outputs are what the documentation says
-/

namespace WebAuthn.Props

open WebAuthn WebAuthn.Spec

/-! ## C79 -/

/-- C79, the part that holds: outputs are accepted exactly if their values have the documented
types, and are handed on as they are.  Missing: what is documented of the values themselves. -/
theorem C79_types_partial {d : Dict} {e : Extensions} :
    parseExtensions d = .ok e ↔ ExtensionsOf d e :=
  parseExtensions_ok_iff

theorem units_iff {x : Num} {v : Int} : Repaired.units x = some v ↔ Value x v := by
  cases x with
  | int n =>
    simp only [Repaired.units, Option.some.injEq]
    constructor
    · rintro rfl; exact .int n
    · rintro ⟨⟩; rfl
  | float f =>
    simp only [Repaired.units]
    split
    · next h =>
      simp only [reduceCtorEq, false_iff]
      rintro (_ | ⟨_, hf⟩)
      exact hf h
    · next h =>
      have hs : scaled f = (if f.bits.toNat / 2 ^ 63 = 1
          then -((if f.bits.toNat / 2 ^ 52 % 2 ^ 11 = 0 then f.bits.toNat % 2 ^ 52
            else (2 ^ 52 + f.bits.toNat % 2 ^ 52) * 2 ^ (f.bits.toNat / 2 ^ 52 % 2 ^ 11 - 1) : Nat) : Int)
          else ((if f.bits.toNat / 2 ^ 52 % 2 ^ 11 = 0 then f.bits.toNat % 2 ^ 52
            else (2 ^ 52 + f.bits.toNat % 2 ^ 52) * 2 ^ (f.bits.toNat / 2 ^ 52 % 2 ^ 11 - 1) : Nat) : Int)) := by
        unfold scaled
        dsimp only
        split
        · rw [Int.neg_one_mul]
        · rw [Int.one_mul]
      rw [← hs, Option.some.injEq]
      constructor
      · rintro rfl; exact .float f h
      · rintro ⟨⟩; rfl

theorem units_isSome {x : Num} : (Repaired.units x).isSome = true ↔ RealNumber x := by
  rw [Option.isSome_iff_exists]
  simp only [units_iff, RealNumber]

theorem units_any {x : Num} {p : Int → Bool} :
    (Repaired.units x).any p = true ↔ ∃ v, Value x v ∧ p v = true := by
  simp only [Option.any_eq_true, units_iff]

theorem atLeastZero_iff {x : Num} : Repaired.atLeastZero x = true ↔ NotNegative x := by
  simp only [Repaired.atLeastZero, units_any, NotNegative, decide_eq_true_eq]

theorem nan_iff {x : Num} : Repaired.nan x = true ↔ NotANumber x := by
  cases x with
  | int n => simp [Repaired.nan, NotANumber]
  | float f =>
    simp only [Repaired.nan, NotANumber, FiniteFloat, Bool.and_eq_true, beq_iff_eq, bne_iff_ne, ne_eq,
      not_not]

theorem stationary_iff {c : Coordinates} :
    (c.speed.any fun s => Repaired.units s == some 0) = true ↔ Stationary c := by
  simp only [Option.any_eq_true, beq_iff_eq, units_iff, Stationary]

theorem heading_iff {c : Coordinates} {x : Num} : Repaired.heading c x = true ↔
    Stationary c ∧ NotANumber x ∨ ¬ Stationary c ∧ Direction x := by
  unfold Repaired.heading
  by_cases hs : Stationary c
  · rw [if_pos (stationary_iff.mpr hs), nan_iff]
    simp [hs]
  · rw [if_neg (fun h => hs (stationary_iff.mp h)), units_any]
    simp only [hs, false_and, false_or, not_false_eq_true, true_and, Direction, Bool.and_eq_true,
      decide_eq_true_eq]

theorem position_iff {c : Coordinates} : Repaired.position c = true ↔ Position c := by
  simp only [Repaired.position, Repaired.ifGiven, Bool.and_eq_true, Option.any_eq_true,
    Option.all_eq_true, units_isSome, atLeastZero_iff, heading_iff,
    Option.isSome_iff_ne_none (o := c.altitude)]
  constructor
  · rintro ⟨⟨⟨⟨⟨⟨h1, h2⟩, h3⟩, h4⟩, h5⟩, h6⟩, h7⟩
    exact ⟨h1, h2, h3, h4, h5, h6, h7⟩
  · rintro ⟨h1, h2, h3, h4, h5, h6, h7⟩
    exact ⟨⟨⟨⟨⟨⟨h1, h2⟩, h3⟩, h4⟩, h5⟩, h6⟩, h7⟩

/-- C79 for the repaired parser: it accepts exactly the outputs that are as documented, and
refuses the others with `ParserError`. -/
theorem C79_repaired_exact {d : Dict} :
    (∀ e, Repaired.parseExtensions d = .ok e ↔ ExtensionsOf d e ∧ Documented e) ∧
    ((¬ ∃ e, ExtensionsOf d e ∧ Documented e) →
      Repaired.parseExtensions d = .error (.lib .parser)) := by
  have key : ∀ e, Repaired.parseExtensions d = .ok e ↔ ExtensionsOf d e ∧ Documented e := by
    intro e
    simp only [Repaired.parseExtensions, bind_ok_iff, require_ok_iff, parseExtensions_ok_iff,
      pure_eq_ok, Except.ok.injEq, bne_iff_ne, Option.all_eq_true, position_iff, List.all_eq_true,
      beq_iff_eq]
    constructor
    · rintro ⟨e', h, -, h1, -, h2, -, h3, -, h4, rfl⟩
      exact ⟨h, h1, h3, h4, h2⟩
    · rintro ⟨h, h1, h3, h4, h2⟩
      exact ⟨e, h, (), h1, (), h2, (), h3, (), h4, rfl⟩
  refine ⟨key, fun h => ?_⟩
  obtain ⟨x, hx⟩ := error_of_not_ok fun e he => h ⟨e, (key e).mp he⟩
  rw [hx]
  have hr : Raises (Repaired.parseExtensions d) IsParser := by
    unfold Repaired.parseExtensions
    exact raises_bind (raises_parseExtensions d) fun _ =>
      raises_bind (raises_require rfl) fun _ => raises_bind (raises_require rfl) fun _ =>
      raises_bind (raises_require rfl) fun _ => raises_bind (raises_require rfl) fun _ =>
      raises_pure _
  rw [hr x hx]

theorem C79_repaired : ParsedAsDocumented Repaired.parseExtensions := fun _ _ h =>
  ((C79_repaired_exact.1 _).mp h).2

/-! ## C79 is false of the code -/

/-- A location without a position. -/
theorem parse_nowhere : parseExtensions [(.str "loc", .dict [])] =
    .ok { loc := some ⟨none, none, none, none, none, none, none⟩ } := rfl

/-- C79 is false of the code: a location may lack its position, or have a negative accuracy or a
direction beyond 360 degrees; the entries of `uvm` may have any length; the flags may be false. -/
theorem C79_refuted :
    ¬ ParsedAsDocumented parseExtensions ∧
    (∃ d e c, parseExtensions d = .ok e ∧ e.loc = some c ∧ c.latitude = none) ∧
    (∃ d e c x, parseExtensions d = .ok e ∧ e.loc = some c ∧ c.accuracy = some x ∧ ¬ NotNegative x) ∧
    (∃ d e c x, parseExtensions d = .ok e ∧ e.loc = some c ∧ c.heading = some x ∧
      ¬ Direction x ∧ ¬ NotANumber x) ∧
    (∃ d e l entry, parseExtensions d = .ok e ∧ e.uvm = some l ∧ entry ∈ l ∧ entry.length ≠ 3) ∧
    (∃ d e, parseExtensions d = .ok e ∧ e.authnSel = some false) ∧
    (∃ d e, parseExtensions d = .ok e ∧ e.biometricPerfBounds = some false) := by
  refine ⟨fun h => ?_, ⟨_, _, _, parse_nowhere, rfl, rfl⟩, ?_, ?_, ?_, ?_, ?_⟩
  · obtain ⟨x, hx, -⟩ := ((h _ _ parse_nowhere).loc _ rfl).latitude
    cases hx
  · refine ⟨[(.str "loc", .dict [(.str "accuracy", .int (-1))])], _, _, _, rfl, rfl, rfl, ?_⟩
    rintro ⟨v, ⟨⟩, hv⟩
    have : (0 : Int) < 2 ^ 1074 := by positivity
    omega
  · refine ⟨[(.str "loc", .dict [(.str "heading", .int 361)])], _, _, _, rfl, rfl, rfl, ?_, id⟩
    rintro ⟨v, ⟨⟩, -, hv⟩
    have : (0 : Int) < 2 ^ 1074 := by positivity
    omega
  · exact ⟨[(.str "uvm", .list [.list [.int 2]])], _, _, _, rfl, rfl, List.mem_singleton.mpr rfl,
      by simp⟩
  · exact ⟨[(.str "authnSel", .bool false)], _, rfl, rfl⟩
  · exact ⟨[(.str "biometricPerfBounds", .bool false)], _, rfl, rfl⟩

/-- Outputs as documented: a position half a degree off, at rest. -/
def fullMap : Dict :=
  [(.str "authnSel", .bool true), (.str "uvm", .list [.list [.int 2, .int 4, .int 2]]),
   (.str "loc", .dict [(.str "latitude", .float ⟨0x4049C00000000000⟩), (.str "longitude", .int (-1)),
     (.str "accuracy", .float ⟨0x4059000000000000⟩), (.str "speed", .float ⟨0⟩),
     (.str "heading", .float ⟨0x7FF8000000000000⟩)])]

def fullOutputs : Extensions :=
  { authnSel := some true, uvm := some [[2, 4, 2]],
    loc := some ⟨some (.float ⟨0x4049C00000000000⟩), some (.int (-1)), none,
      some (.float ⟨0x4059000000000000⟩), none, some (.float ⟨0x7FF8000000000000⟩), some (.float ⟨0⟩)⟩ }

/-- They meet the hypotheses of `C79_types_partial`, and both parsers accept them. -/
example : ExtensionsOf fullMap fullOutputs ∧ Documented fullOutputs ∧
    parseExtensions fullMap = .ok fullOutputs ∧ Repaired.parseExtensions fullMap = .ok fullOutputs := by
  have h1 : parseExtensions fullMap = .ok fullOutputs := rfl
  have h2 := parseExtensions_ok_iff.mp h1
  have h3 : Documented fullOutputs :=
    ⟨by simp [fullOutputs], fun c hc => by cases hc; exact position_iff.mp (by decide +kernel),
      fun l hl => by cases hl; simp, by simp [fullOutputs]⟩
  exact ⟨h2, h3, C79_types_partial.mpr h2, (C79_repaired_exact.1 _).mpr ⟨h2, h3⟩⟩

/-- The repaired parser refuses a location without a position. -/
example : Repaired.parseExtensions [(.str "loc", .dict [])] = .error (.lib .parser) := by
  refine C79_repaired_exact.2 ?_
  rintro ⟨e, h, hd⟩
  rw [← parseExtensions_ok_iff, parse_nowhere] at h
  cases h
  obtain ⟨x, hx, -⟩ := (hd.loc _ rfl).latitude
  cases hx

end WebAuthn.Props
