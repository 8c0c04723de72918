import Verif.Props.Jsonify
import Verif.Lemmas.RepairedJsonify

/-!
# Conversion to JSON, repaired (C40)
-/

namespace WebAuthn.Props

open WebAuthn WebAuthn.Spec

/-- C40 of the repaired `jsonify`: what it returns is always a JSON value without
null members. -/
theorem C40_repaired_json (cc : Bool) (o : Obj) (v : PyVal)
    (h : Repaired.jsonify cc o = .ok v) : JsonValue v := by
  have hf := repaired_jsonify_finite cc o h
  rw [repaired_jsonify cc o hf] at h
  cases hj : jsonify cc o with
  | error e => rw [hj] at h; cases h
  | ok w =>
    rw [hj] at h
    cases h
    exact withoutNulls_json (jsonify_shows cc o hj) hf

/-- C40 of the repaired `jsonify`: it returns exactly on the supported objects with
finite floats, and then what shows the object, without the null members. -/
theorem C40_repaired_shows (cc : Bool) (o : Obj) :
    ((∃ v, Repaired.jsonify cc o = .ok v) ↔ Supported o ∧ FiniteFloats o) ∧
    ∀ v, Repaired.jsonify cc o = .ok v → ∃ w, Shows (jsonName cc) o w ∧ v = withoutNulls w := by
  refine ⟨⟨?_, ?_⟩, ?_⟩
  · rintro ⟨v, h⟩
    have hf := repaired_jsonify_finite cc o h
    rw [repaired_jsonify cc o hf] at h
    cases hj : jsonify cc o with
    | error e => rw [hj] at h; cases h
    | ok w => exact ⟨(C40_supported cc o).mp ⟨w, hj⟩, hf⟩
  · rintro ⟨hs, hf⟩
    obtain ⟨w, hw⟩ := (C40_supported cc o).mpr hs
    exact ⟨withoutNulls w, by rw [repaired_jsonify cc o hf, hw]; rfl⟩
  · intro v h
    have hf := repaired_jsonify_finite cc o h
    rw [repaired_jsonify cc o hf] at h
    cases hj : jsonify cc o with
    | error e => rw [hj] at h; cases h
    | ok w =>
      rw [hj] at h
      cases h
      exact ⟨w, C40_shows cc o w hj, rfl⟩

/-- C40 of the repaired `jsonify`: it raises only `JSONConversionError` and
`UnimplementedError`. -/
theorem C40_repaired_errors (cc : Bool) (o : Obj) (e : Exc)
    (h : Repaired.jsonify cc o = .error e) : e = .lib .jsonConversion ∨ e = .lib .unimplemented :=
  repaired_jsonify_errors cc o h

/-- C40: nothing changes for objects with finite floats and without enumeration
members that have the value `None`. -/
theorem C40_repaired_conservative (cc : Bool) (o : Obj) (hr : Regular o) :
    Repaired.jsonify cc o = jsonify cc o := by
  rw [repaired_jsonify cc o (regular_finite hr)]
  cases hj : jsonify cc o with
  | error e => rfl
  | ok w =>
    change Except.ok _ = Except.ok _
    rw [withoutNulls_of_json (C40_json_partial cc o w hr hj)]

/-- The member that the code shows as null is left out, the others are kept. -/
theorem repaired_enum : Repaired.jsonify true (.dict [(.str "a", .enum .none),
    (.str "b", .bytes [1, 2])]) = .ok (.dict [(.str "b", .str "AQI=")]) := rfl

example : JsonValue (.dict [(.str "b", .str "AQI=")]) := C40_repaired_json _ _ _ repaired_enum

example : ∃ w, Shows (jsonName true) (.dict [(.str "a", .enum .none), (.str "b", .bytes [1, 2])]) w ∧
    .dict [(.str "b", .str "AQI=")] = withoutNulls w :=
  (C40_repaired_shows true _).2 _ repaired_enum

/-- A NaN is refused. -/
theorem repaired_nan : Repaired.jsonify true (.list [.float ⟨0x7ff8000000000000⟩]) =
    .error (.lib .jsonConversion) := rfl

example : (Exc.lib .jsonConversion = .lib .jsonConversion ∨
    Exc.lib .jsonConversion = .lib .unimplemented) := C40_repaired_errors _ _ _ repaired_nan

example : Repaired.jsonify true sample = .ok (.dict [(.str "userId", .str "AQI="),
    (.str "extraInfo", .dict [(.str "isOk", .list [.bool true, .int 3])])]) := by
  rw [C40_repaired_conservative true sample sample_regular, sample_json]

end WebAuthn.Props
