import Verif.Spec.Client
import Verif.Props.PageDemo

/-!
# Clients take the options of the example application (C94)
-/

namespace WebAuthn.Flask

open Spec Props

variable {app : App}

theorem host_localhost : HostOf "http://localhost:5000" "localhost" :=
  ⟨by decide, by decide, "http", Or.inr ⟨"5000", by decide⟩⟩

theorem members_required {fields : List (String × Option Check)} {d : Dict} (h : Members fields (.dict d))
    {n : String} {P Q : Check} (hm : (n, some P) ∈ fields) (hpq : ∀ v, P v → Q v) : Required d n Q := by
  obtain ⟨_, e, hn, -, h⟩ := h
  cases e
  obtain ⟨j, hj, hp⟩ := h n P hm
  exact ⟨j, Page.mem_lookup hn hj, hpq j hp⟩

theorem members_ifThere {fields : List (String × Option Check)} {d : Dict} (h : Members fields (.dict d))
    {n : String} {Q : Check} (hpq : ∀ P, (n, some P) ∈ fields → ∀ v, P v → Q v) : IfThere d n Q := by
  intro v hv
  obtain ⟨P, hm, hp⟩ := Page.members_at h hv
  exact hpq P hm v hp

theorem members_object {fields : List (String × Option Check)} {v : PyVal} (h : Members fields v) :
    ∃ d, v = .dict d ∧ Members fields (.dict d) := by
  obtain ⟨d, rfl, h⟩ := h
  exact ⟨d, rfl, d, rfl, h⟩

theorem takes_creation {name : String} {handle ch : Bytes} {opts : PyVal}
    (h : CreationArgument name handle ch opts) (h1 : 1 ≤ handle.length) (h2 : handle.length ≤ 64)
    (h3 : 16 ≤ ch.length) : TakesCreation "http://localhost:5000" opts := by
  obtain ⟨⟨d, hd, -⟩, -, -⟩ := PageRun.creation_has h
  have hm := creation_publicKey h hd
  refine ⟨d, hd, ?_, ?_, ?_, ?_, ?_, ?_, ?_, ?_, ?_, ?_⟩
  · refine members_required hm (List.mem_cons_self ..) fun v hv => ?_
    obtain ⟨r, rfl, hr⟩ := members_object hv
    refine ⟨r, rfl, members_required hr (P := IsText "localhost") (by simp) fun v hv => ⟨_, hv⟩,
      members_ifThere hr fun P hP v hv => ?_⟩
    simp at hP
    subst hP
    exact ⟨_, hv, host_localhost⟩
  · refine members_required hm (List.mem_cons_of_mem _ (List.mem_cons_self ..)) fun v hv => ?_
    obtain ⟨u, rfl, hu⟩ := members_object hv
    exact ⟨u, rfl, members_required hu (P := IsText name) (by simp) fun v hv => ⟨_, hv⟩,
      members_required hu (P := IsText name) (by simp) fun v hv => ⟨_, hv⟩,
      members_required hu (P := IsBytes handle) (by simp) fun v hv => ⟨_, hv, h1, h2⟩⟩
  · exact members_required hm (P := IsBytes ch) (by simp [Page.creationFields]) fun v hv => ⟨_, hv, h3⟩
  · refine members_required hm (n := "pubKeyCredParams") (List.mem_cons_of_mem _ (List.mem_cons_of_mem _
      (List.mem_cons_of_mem _ (List.mem_cons_self ..)))) ?_
    rintro v ⟨p, rfl, hp⟩
    obtain ⟨p, rfl, hp⟩ := members_object hp
    refine ⟨_, rfl, fun w hw => ?_⟩
    rw [List.mem_singleton] at hw
    subst hw
    exact ⟨p, rfl, members_required hp (P := IsText "public-key") (by simp) fun v hv => ⟨_, hv⟩,
      members_required hp (P := IsInt (-7)) (by simp) fun v hv => ⟨_, hv, by decide, by decide⟩⟩
  · obtain ⟨v, hv, p, rfl, hp⟩ := members_required hm (n := "pubKeyCredParams") (List.mem_cons_of_mem _
      (List.mem_cons_of_mem _ (List.mem_cons_of_mem _ (List.mem_cons_self ..)))) fun v hv => hv
    obtain ⟨p, rfl, hp⟩ := members_object hp
    obtain ⟨w, hw, rfl⟩ := members_required hp (n := "type") (P := IsText "public-key") (by simp) fun v hv => hv
    exact ⟨_, p, hv, List.mem_singleton.mpr rfl, hw⟩
  · refine members_ifThere hm fun P hP v hv => ?_
    simp [Page.creationFields] at hP
    subst hP
    exact ⟨_, hv, by decide, by decide⟩
  · refine members_ifThere hm fun P hP => ?_
    simp [Page.creationFields] at hP
  · refine members_ifThere hm fun P hP => ?_
    simp [Page.creationFields] at hP
  · refine members_ifThere hm fun P hP v hv => ?_
    simp [Page.creationFields] at hP
    subst hP
    exact ⟨_, by simp, hv⟩
  · refine members_ifThere hm fun P hP => ?_
    simp [Page.creationFields] at hP

theorem takes_request {ids : List Bytes} {ch : Bytes} {opts : PyVal} (h : RequestArgument ch ids opts)
    (h3 : 16 ≤ ch.length) : TakesRequest "http://localhost:5000" opts := by
  obtain ⟨⟨d, hd, -⟩, -, -⟩ := PageRun.request_has h
  have hm := request_publicKey h hd
  refine ⟨?_, d, hd, ?_, ?_, ?_, ?_, ?_, ?_⟩
  · obtain ⟨o, rfl, ho⟩ := members_object h
    refine ⟨o, rfl, members_ifThere ho fun P hP v hv => ?_⟩
    simp at hP
    subst hP
    exact ⟨_, by simp, hv⟩
  · exact members_required hm (P := IsBytes ch) (by simp [Page.requestFields]) fun v hv => ⟨_, hv, h3⟩
  · refine members_ifThere hm fun P hP v hv => ?_
    simp [Page.requestFields] at hP
    subst hP
    exact ⟨_, hv, by decide, by decide⟩
  · refine members_ifThere hm fun P hP v hv => ?_
    simp [Page.requestFields] at hP
    subst hP
    exact ⟨_, hv, host_localhost⟩
  · refine members_ifThere hm fun P hP v hv => ?_
    simp [Page.requestFields] at hP
    subst hP
    obtain ⟨vs, rfl, hvs⟩ := hv
    refine ⟨vs, rfl, fun w hw => ?_⟩
    obtain ⟨id, -, hw⟩ := Page.forall₂_right hvs hw
    obtain ⟨c, rfl, hc⟩ := members_object hw
    refine ⟨c, rfl, members_required hc (P := IsText "public-key") (by simp) fun v hv => ⟨_, hv⟩,
      members_required hc (P := IsBytes id) (by simp) fun v hv => ⟨_, hv, trivial⟩,
      members_ifThere hc fun P hP => ?_⟩
    simp at hP
  · refine members_ifThere hm fun P hP v hv => ?_
    simp [Page.requestFields] at hP
    subst hP
    exact ⟨_, by simp, hv⟩
  · refine members_ifThere hm fun P hP => ?_
    simp [Page.requestFields] at hP

/-- C94: clients take the options for a registration. -/
theorem C94_creation {pre : List Event} {name : String} {hd ch : Bytes} {t : Int} {v : PyVal}
    (hdr : Drawn (pre ++ [.registrationRequest (some name) hd ch t]))
    (h : reply app pre (.registrationRequest (some name) hd ch t) = .json v) :
    ∃ opts, Page.creationCall (.json v) = some opts ∧ TakesCreation "http://localhost:5000" opts := by
  obtain ⟨opts, u, h1, h2, -, h4⟩ := C57_creation_argument h
  obtain ⟨pre', ch', t', ho⟩ := users_requested app _ u h2
  have hu : u.handle.length = 64 := by
    obtain ⟨post, ho⟩ := ho
    refine (hdr.1 (some u.username) u.handle ch' t' ?_).1
    rw [ho]
    simp
  have hc : ch.length = 64 := (hdr.1 (some name) hd ch t (by simp)).2
  exact ⟨opts, h1, takes_creation h4 (by omega) (by omega) (by omega)⟩

/-- C94: clients take the options for a login. -/
theorem C94_request {pre : List Event} {name : String} {ch : Bytes} {t : Int} {v : PyVal}
    (hdr : Drawn (pre ++ [.authenticationRequest (some name) ch t]))
    (h : reply app pre (.authenticationRequest (some name) ch t) = .json v) :
    ∃ opts, Page.requestCall (.json v) = some opts ∧ TakesRequest "http://localhost:5000" opts := by
  obtain ⟨opts, ids, h1, h2, -⟩ := C57_request_argument h
  have hc : ch.length = 64 := hdr.2 (some name) ch t (by simp)
  exact ⟨opts, h1, takes_request h2 (by omega)⟩

/-! ## Cases -/

/-- A registration with a handle and a challenge of 64 bytes. -/
example (app : App) : ∃ v opts, reply app [] (.registrationRequest (some "ada") (List.replicate 64 1)
      (List.replicate 64 2) 0) = .json v ∧ Page.creationCall (.json v) = some opts ∧
    TakesCreation "http://localhost:5000" opts := by
  obtain ⟨v, hv⟩ := C57_registration_answered (app := app) (pre := []) "ada" (hd := List.replicate 64 1)
    (ch := List.replicate 64 2) 0 (fun _ _ _ _ _ h => absurd h PageRun.nothing)
    (fun _ _ _ _ h => absurd h PageRun.nothing)
  obtain ⟨opts, h1, h2⟩ := C94_creation (app := app) ⟨fun name hd ch t h => by
    simp only [List.nil_append, List.mem_singleton, Event.registrationRequest.injEq] at h
    obtain ⟨-, rfl, rfl, -⟩ := h
    exact ⟨List.length_replicate .., List.length_replicate ..⟩, fun name ch t h => by
    simp at h⟩ hv
  exact ⟨v, opts, hv, h1, h2⟩

/-- The conditions are not met by all options: not with another page, and not with a longer handle. -/
example {name : String} {handle ch : Bytes} {opts : PyVal} (h : CreationArgument name handle ch opts)
    (hl : 64 < handle.length) (origin : String) : ¬ TakesCreation origin opts := by
  rintro ⟨d, hd, -, ⟨v, hv, u, rfl, -, -, w, hw, b, rfl, -, hb⟩, -⟩
  have := creation_userId h ⟨d, u, hd, hv, hw⟩
  subst this
  omega

end WebAuthn.Flask
