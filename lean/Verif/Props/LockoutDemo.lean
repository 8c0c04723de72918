import Verif.Props.Lockout
import Verif.Props.PhishingDemo

/-!
# The holder of a key is not locked out, on the concrete runs (C70)
-/

namespace WebAuthn.Flask

open WebAuthn WebAuthn.Spec WebAuthn.Props

namespace Run

theorem authRaw_ne {m n : UInt8} (h : m ≠ n) : authRaw m ≠ authRaw n := by
  intro he
  simp only [authRaw, List.append_nil] at he
  have := List.append_inj_right he rfl
  simp at this
  exact h this

theorem authRaw_counter (n : UInt8) : BigEndian (((authRaw n).drop 33).take 4) n.toNat :=
  (authDataOf_head (encodedAuthData_of Demo.codec (authRaw_enc n))).2.2.2

/-- After the attack by the page that passes for the application, Ada logs in. -/
example : reply app [e1, e2, e3, evil] e5 = success := by
  refine C70_login (app := app) Demo.codec Demo.json (pre := []) (pre' := [e1, e2])
    (e := e1) (e' := e3) (c := authCredential 2 challenge1)
    (cdj := clientData "webauthn.get" challenge1)
    (raw := authRaw 2) (sig := signature 2 challenge1) (handle := some handle1) (ad := authAd 2)
    (k := Demo.key) ⟨[e2, e3, evil], rfl⟩ issues1 ?_ ⟨[evil], rfl⟩ registers3 (form1 _ _) rfl
    (clientData_text _ _) (C38_base64url_encoding _).1 ?_ (authRaw_enc 2) ?_ ?_
    (signature_ok 2 challenge1) evil_holder ?_ ?_
  · decide
  · intro h hh
    obtain rfl := Option.some.inj hh
    exact ⟨_, ada_stays [e3, evil], rfl, rfl⟩
  · exact rpHash_enc (authRaw_enc 2) rfl
  · exact Demo.flagSet_enc (authRaw_enc 2) (by decide)
  · rintro a rfl -
    exact ⟨1, authRaw_counter 1, by decide⟩
  · rintro cdj' sig' ⟨f, t, n, c, name, handle, hm, hf, hc⟩
    simp only [e1, e2, e3, evil, List.mem_cons, List.not_mem_nil, or_false, reduceCtorEq, false_or,
      Event.authenticationResponse.injEq] at hm
    obtain ⟨rfl, -⟩ := hm
    obtain ⟨-, rfl, -⟩ := submits_unique hf (form1 _ _)
    simp only [evilCredential, Response.assertion.injEq] at hc
    exact authRaw_ne (by decide) hc.2.1

/-- And a request for a login is answered with a challenge. -/
example : ∃ n, Issues app [e1, e2, e3, evil] (.authenticationRequest (some "ada") [1, 2, 3] 9100) n
    [1, 2, 3] 9100 "ada" := by
  refine C70_request (pre := [e1, e2]) (e := e3) ⟨[evil], rfl⟩ registers3 ?_
  rintro pre e n t name ⟨post, h⟩ ⟨-, ⟨h', rfl⟩ | rfl⟩
  · have : Event.registrationRequest (some name) h' [1, 2, 3] t ∈ [e1, e2, e3, evil] := by rw [h]; simp
    simp [e1, e2, e3, evil, challenge1, challenge2] at this
  · have : Event.authenticationRequest (some name) [1, 2, 3] t ∈ [e1, e2, e3, evil] := by rw [h]; simp
    simp [e1, e2, e3, evil] at this

end Run

/-! ## Requests in progress at the same time -/

section
variable {ι : Type} [DecidableEq ι] {app : App}

/-- Requests that have no statement executed do not matter. -/
theorem serveAll_congr {reqs reqs' : ι → Event} {sched : List ι} (h : ∀ i ∈ sched, reqs i = reqs' i) :
    (serveAll app reqs sched).db = (serveAll app reqs' sched).db ∧
      ∀ i, reqs i = reqs' i → (serveAll app reqs sched).tasks i = (serveAll app reqs' sched).tasks i := by
  induction sched using List.reverseRecOn with
  | nil =>
    refine ⟨rfl, fun i hi => ?_⟩
    show task app (reqs i) = task app (reqs' i)
    rw [hi]
  | append_singleton l j ih =>
    obtain ⟨h1, h2⟩ := ih fun i hi => h i (List.mem_append_left _ hi)
    have hj := h2 j (h j (by simp))
    simp only [serveAll, List.foldl_append, List.foldl_cons, List.foldl_nil]
    change _ = (Server.step (serveAll app reqs' l) j).db ∧ _
    refine ⟨?_, fun i hi => ?_⟩
    · show (((serveAll app reqs l).tasks j).step (serveAll app reqs l).db).2 =
        (((serveAll app reqs' l).tasks j).step (serveAll app reqs' l).db).2
      rw [hj, h1]
    · show (if i = j then (((serveAll app reqs l).tasks j).step (serveAll app reqs l).db).1
          else (serveAll app reqs l).tasks i) =
        (if i = j then (((serveAll app reqs' l).tasks j).step (serveAll app reqs' l).db).1
          else (serveAll app reqs' l).tasks i)
      rw [hj, h1, h2 i hi]

theorem answer_congr {reqs reqs' : ι → Event} {sched : List ι} (h : ∀ i ∈ sched, reqs i = reqs' i)
    {i : ι} (hi : reqs i = reqs' i) : answer app reqs sched i = answer app reqs' sched i := by
  simp only [answer, (serveAll_congr (app := app) h).2 i hi]

end

namespace Threads

open Run

/-- Each login is submitted once. -/
def reqs' (i : Nat) : Event := if i = 4 then .registrationRequest none [] [] 0 else reqs i

theorem reqs'_eq {sched : List Nat} (h : 4 ∉ sched) (i : Nat) (hi : i ∈ sched) : reqs i = reqs' i := by
  rw [reqs', if_neg]
  rintro rfl
  exact h hi

theorem holder' : Holder app.env Demo.key (SentIn app reqs') acts := by
  refine holder.mono ?_
  rintro cdj raw sig ⟨i, f, t, n, c, name, handle, hi, h⟩
  refine ⟨i, f, t, n, c, name, handle, ?_, h⟩
  rw [reqs'] at hi
  split_ifs at hi
  exact hi

theorem issued0' : IssuedAt app reqs' base 0 1 challenge1 0 "ada" := by
  have h := issuedAt_mono (q := base) (by decide) issued0
  rw [IssuedAt, answer_congr (reqs'_eq (by decide)) (reqs'_eq (sched := base) (by decide) 0 (by decide))]
    at h
  exact h

theorem registered1' : RegisteredAt app reqs' base 1 Demo.credId "ada" Demo.key := by
  have h := registered1 (sched := base) (by decide) (by decide)
  rw [RegisteredAt, answer_congr (reqs'_eq (by decide))
    (reqs'_eq (sched := base) (by decide) 1 (by decide))] at h
  exact h

/-- The login 3 is accepted while the login 2, of an earlier approval, is in progress. -/
example : answer app reqs' (base ++ [2, 2, 3, 2, 3, 3, 5, 3, 2, 3, 5, 2, 3, 2]) 3 = some success := by
  refine C70_overlapping (app := app) Demo.codec Demo.json (pre := base) (j := 0) (j' := 1)
    (c := authCredential 2 challenge1) (cdj := clientData "webauthn.get" challenge1)
    (raw := authRaw 2) (sig := signature 2 challenge1) (handle := some handle1)
    (ad := authAd 2) (k := Demo.key) (now := 9500) (by decide) issued0' (by decide) registered1' rfl
    (by decide) (by decide) (form1 _ _) rfl
    (clientData_text _ _) (C38_base64url_encoding _).1 ?_ (authRaw_enc 2) ?_ ?_
    (signature_ok 2 challenge1) holder' ?_ ?_
  · intro h hh
    obtain rfl := Option.some.inj hh
    refine ⟨⟨1, "ada", handle1⟩, ?_, rfl, rfl⟩
    rw [← (serveAll_congr (reqs'_eq (by decide))).1]
    exact ada
  · exact rpHash_enc (authRaw_enc 2) rfl
  · exact Demo.flagSet_enc (authRaw_enc 2) (by decide)
  · rintro a (rfl | rfl) hne
    · exact ⟨1, authRaw_counter 1, by decide⟩
    · simp [approval] at hne
  · intro j f' t' n' c' name' cdj' sig' handle' hj hi hf hc
    rw [reqs'] at hi
    split_ifs at hi
    match j with
    | 2 =>
      simp only [reqs, e4, Event.authenticationResponse.injEq] at hi
      obtain ⟨rfl, -⟩ := hi
      obtain ⟨-, rfl, -⟩ := submits_unique hf (form1 _ _)
      simp only [authCredential, Response.assertion.injEq] at hc
      exact authRaw_ne (by decide) hc.2.1
    | 3 => exact hj rfl
    | 4 => contradiction
    | 0 => simp [reqs, e1] at hi
    | 1 => simp [reqs, e3] at hi
    | 5 | 6 | 7 => simp [reqs] at hi
    | n + 8 => simp [reqs] at hi

end Threads

end WebAuthn.Flask
