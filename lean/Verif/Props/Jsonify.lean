import Verif.Lemmas.Jsonify
import Verif.Lemmas.Names

/-!
# Conversion to JSON (C40)
-/

namespace WebAuthn.Props

open WebAuthn WebAuthn.Spec

/-- C40: what `jsonify` returns shows the object: the members that are not `None`
under their names (in camel case if that is asked for), bytes as base64 texts that
decode to them, all else as it is. -/
theorem C40_shows (cc : Bool) (o : Obj) (v : PyVal) (h : jsonify cc o = .ok v) :
    Shows (jsonName cc) o v := by
  rw [← memberName_eq]
  exact jsonify_shows cc o h

/-- C40: `jsonify` returns exactly on the supported objects. -/
theorem C40_supported (cc : Bool) (o : Obj) : (∃ v, jsonify cc o = .ok v) ↔ Supported o :=
  ⟨fun ⟨_, h⟩ => jsonify_ok_supported cc o h, jsonify_supported cc⟩

/-- C40: `jsonify` raises only `JSONConversionError` and `UnimplementedError`. -/
theorem C40_errors (cc : Bool) (o : Obj) (e : Exc) (h : jsonify cc o = .error e) :
    e = .lib .jsonConversion ∨ e = .lib .unimplemented :=
  jsonify_errors cc o h

/-- C40, the part that holds: the result is a JSON value without null members when
the floats are finite and no enumeration member has the value `None`. Missing:
the other objects, see `C40_refuted`. -/
theorem C40_json_partial (cc : Bool) (o : Obj) (v : PyVal) (hr : Regular o)
    (h : jsonify cc o = .ok v) : JsonValue v :=
  (shows_json (jsonify_shows cc o h) hr).1

/-- C40 as stated: what `jsonify` returns is always a JSON value without null
members. -/
def ReturnsJson : Prop := ∀ (cc : Bool) (o : Obj) (v : PyVal), jsonify cc o = .ok v → JsonValue v

/-- C40 as stated is false for each of two reasons: a NaN is passed on, and an
enumeration member with the value `None` becomes a null member. -/
theorem C40_refuted : ¬ ReturnsJson ∧
    (∃ o v, jsonify true o = .ok v ∧ ¬ JsonValue v ∧ ∃ f, o = .float f) ∧
    (∃ o v, jsonify true o = .ok v ∧ ¬ JsonValue v ∧ ∃ k, o = .dict [(.str k, .enum .none)]) := by
  have h1 : jsonify true (.float ⟨0x7ff8000000000000⟩) = .ok (.float ⟨0x7ff8000000000000⟩) := by
    rw [jsonify]
  have h2 : ¬ JsonValue (.float ⟨0x7ff8000000000000⟩) := by
    rintro (_ | _ | _ | ⟨_, hf⟩)
    exact hf (by decide)
  have h3 : jsonify true (.dict [(.str "a", .enum .none)]) = .ok (.dict [(.str "a", .none)]) := by
    simp [jsonify, jsonifyItems, Obj.isStr, Obj.isNone, Dict.put, memberName]
    rfl
  refine ⟨fun h => h2 (h _ _ _ h1), ⟨_, _, h1, h2, _, rfl⟩, ⟨_, _, h3, ?_, _, rfl⟩⟩
  rintro (_ | _ | _ | _ | _ | _ | ⟨_, hd, _, _⟩)
  exact (hd _ (List.mem_singleton.mpr rfl)).2 rfl

/-- An object with a nested one, bytes and a member that is `None`. -/
def sample : Obj := .inst [(.str "user_id", .bytes [1, 2]), (.str "display__name", .none),
  (.str "extra_info", .dict [(.str "is_ok", .list [.bool true, .enum (.int 3)])])]

theorem sample_regular : Regular sample := by
  refine .inst _ ?_
  intro kv h
  simp only [List.mem_cons, List.not_mem_nil, or_false] at h
  rcases h with rfl | rfl | rfl
  · exact .bytes _
  · exact .none
  · refine .dict _ ?_
    intro kv h
    simp only [List.mem_cons, List.not_mem_nil, or_false] at h
    subst h
    refine .list _ ?_
    intro x h
    simp only [List.mem_cons, List.not_mem_nil, or_false] at h
    rcases h with rfl | rfl
    · exact .bool _
    · exact .enum _ (by simp) (.int _)

theorem sample_json : jsonify true sample = .ok (.dict [(.str "userId", .str "AQI="),
    (.str "extraInfo", .dict [(.str "isOk", .list [.bool true, .int 3])])]) := by
  rfl

example : JsonValue (.dict [(.str "userId", .str "AQI="),
    (.str "extraInfo", .dict [(.str "isOk", .list [.bool true, .int 3])])]) :=
  C40_json_partial _ _ _ sample_regular sample_json

end WebAuthn.Props
