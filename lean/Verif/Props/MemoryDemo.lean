import Verif.Props.Memory
import Verif.Props.AnswerDemo

/-!
# What is remembered of a concrete history (C117)
-/

namespace WebAuthn.Flask

open WebAuthn WebAuthn.Spec WebAuthn.Props

namespace Run

/-- Ada may log in with the counter 2 at once. -/
theorem reply5_at_once : reply app [e1, e2, e3] e5 = success := by
  refine C56_authentication (app := app) Demo.codec Demo.json (pre := []) (pre' := [e1, e2])
    (e := e1) (e' := e3) (c := authCredential 2 challenge1)
    (cdj := clientData "webauthn.get" challenge1)
    (raw := authRaw 2) (sig := signature 2 challenge1) (handle := some handle1) (ad := authAd 2)
    (k := Demo.key) ⟨[e2, e3], rfl⟩ issues1 ?_ ⟨[], rfl⟩ registers3 (form1 _ _) rfl
    (clientData_text _ _) (C38_base64url_encoding _).1 ?_ (authRaw_enc 2) ?_ ?_
    (signature_ok 2 challenge1) ?_
  · decide
  · intro h hh
    obtain rfl := Option.some.inj hh
    exact ⟨_, ada_stays [e3], rfl, rfl⟩
  · exact rpHash_enc (authRaw_enc 2) rfl
  · exact Demo.flagSet_enc (authRaw_enc 2) (by decide)
  · exact fun pre e m h h' => absurd h' (none_authenticated pre e m h)

/-- That she logged in before is forgotten (an instance of `C117_forgets`). -/
theorem forgotten : SameFacts app [e1, e2, e3, e4, e5] [e1, e2, e3, e5] :=
  C117_forgets (evs := [e1, e2, e3]) (id := Demo.credId) (m := 1) (m' := 2)
    ⟨_, _, _, _, _, 1, rfl, reply4, form1 _ _, rfl, rfl, counter_of 1 challenge1⟩
    ⟨_, _, _, _, _, 2, rfl, reply5, form1 _ _, rfl, rfl, counter_of 2 challenge1⟩
    ⟨_, _, _, _, _, 2, rfl, reply5_at_once, form1 _ _, rfl, rfl, counter_of 2 challenge1⟩

/-- So no request tells the two histories apart (an instance of `C117_future`). -/
example (more : List Event) (e : Event) :
    reply app ([e1, e2, e3, e4, e5] ++ more) e = reply app ([e1, e2, e3, e5] ++ more) e :=
  C117_future forgotten more e

/-- But the registration is not forgotten, nor is the last login. -/
example : ¬ SameFacts app [e1, e2, e3] [e1, e2] ∧ ¬ SameFacts app [e1, e2, e3, e4] [e1, e2, e3] := by
  constructor
  · intro h
    have h1 := C117_future h [] e3
    rw [List.append_nil, List.append_nil] at h1
    exact C111_never (post := []) reply3 (h1.trans reply3)
  · intro h
    have hl : LastLogin app [e1, e2, e3, e4] Demo.credId 1 :=
      ⟨[e1, e2, e3], e4, [], rfl, ⟨_, _, _, _, _, 1, rfl, reply4, form1 _ _, rfl, rfl, counter_of 1 challenge1⟩,
        fun a x b m' h => by simp at h⟩
    obtain ⟨pre, e, ho, ha⟩ := lastLogin_occurs ((h.counters _ _).mp hl)
    exact none_authenticated pre e 1 ho ha

end Run

end WebAuthn.Flask
