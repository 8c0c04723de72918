import Verif.Props.Page
import Verif.Props.FlaskDemo

/-!
# A concrete run of the page and the application

It shows that the hypotheses of the theorems about the page can be met: a user
registers and logs in.
-/

namespace WebAuthn.Flask.PageRun

open WebAuthn WebAuthn.Spec WebAuthn.Props

/-- The number of a decimal text. -/
def decimal (s : String) : Option Nat :=
  if s.toList.all Char.isDigit then some (Nat.ofDigitChars 10 s.toList 0) else none

/-- The application with toy cryptography. -/
def app : App := ⟨Demo.env, decimal⟩

theorem rows : RowIdLaw app := by
  intro n
  show decimal (Nat.repr n) = some n
  unfold decimal
  rw [Nat.toList_repr, if_pos, Nat.ofDigitChars_ten_toDigits]
  exact List.all_eq_true.mpr fun c hc => Nat.isDigit_of_mem_toDigits (by decide) (by decide) hc

/-- Ada asks for a registration. -/
def request : Event := .registrationRequest (some "ada") Run.handle1 Run.challenge1 0

theorem nothing {pre : List Event} {e : Event} : ¬ Occurs [] pre e := by
  rintro ⟨post, h⟩
  exact absurd h (by simp)

theorem occurs_one {x e : Event} {pre : List Event} (h : Occurs [x] pre e) : pre = [] ∧ e = x := by
  obtain ⟨post, h⟩ := h
  cases pre with
  | nil => exact ⟨rfl, (List.cons.inj h).1.symm⟩
  | cons a l => exact absurd (List.cons.inj h).2 (by simp)

/-- What the browser reads in the argument of a creation. -/
theorem creation_has {name : String} {handle ch : Bytes} {opts : PyVal}
    (h : CreationArgument name handle ch opts) :
    ChallengeIn opts ch ∧ RpIdIn opts "localhost" ∧ UserIdIn opts handle := by
  obtain ⟨o, rfl, hn, -, h⟩ := h
  obtain ⟨p, hp, d, rfl, hn', -, h'⟩ := h "publicKey" _ (by simp; rfl)
  have hk : PublicKeyIn (.dict o) d := ⟨o, rfl, Page.mem_lookup hn hp⟩
  obtain ⟨c, hc, rfl⟩ := h' "challenge" (IsBytes ch) (by simp)
  obtain ⟨r, hr, r', rfl, hnr, -, hr'⟩ := h' "rp" _ (List.mem_cons_self ..)
  obtain ⟨i, hi, rfl⟩ := hr' "id" (IsText "localhost") (by simp)
  obtain ⟨u, hu, u', rfl, hnu, -, hu'⟩ := h' "user" _ (List.mem_cons_of_mem _ (List.mem_cons_self ..))
  obtain ⟨j, hj, rfl⟩ := hu' "id" (IsBytes handle) (by simp)
  exact ⟨⟨d, hk, Page.mem_lookup hn' hc⟩, ⟨d, r', hk, Page.mem_lookup hn' hr, Page.mem_lookup hnr hi⟩,
    ⟨d, u', hk, Page.mem_lookup hn' hu, Page.mem_lookup hnu hj⟩⟩

/-- What the browser reads in the argument of a request. -/
theorem request_has {ids : List Bytes} {ch : Bytes} {opts : PyVal} (h : RequestArgument ch ids opts) :
    ChallengeIn opts ch ∧ RequestRpIdIn opts "localhost" ∧ ∀ id ∈ ids, AllowedIn opts id := by
  obtain ⟨o, rfl, hn, -, h⟩ := h
  obtain ⟨p, hp, d, rfl, hn', -, h'⟩ := h "publicKey" _ (List.mem_cons_of_mem _ (List.mem_cons_self ..))
  have hk : PublicKeyIn (.dict o) d := ⟨o, rfl, Page.mem_lookup hn hp⟩
  obtain ⟨c, hc, rfl⟩ := h' "challenge" (IsBytes ch) (by simp)
  obtain ⟨r, hr, rfl⟩ := h' "rpId" (IsText "localhost") (by simp)
  obtain ⟨l, hl, vs, rfl, hvs⟩ := h' "allowCredentials" _
    (List.mem_cons_of_mem _ (List.mem_cons_of_mem _ (List.mem_cons_of_mem _ (List.mem_cons_self ..))))
  refine ⟨⟨d, hk, Page.mem_lookup hn' hc⟩, ⟨d, hk, Page.mem_lookup hn' hr⟩, fun id hid => ?_⟩
  obtain ⟨v, hv, c, rfl, hnc, -, hc'⟩ := Page.forall₂_left hvs hid
  obtain ⟨i, hi, rfl⟩ := hc' "id" (IsBytes id) (by simp)
  exact ⟨d, vs, c, hk, Page.mem_lookup hn' hl, hv, Page.mem_lookup hnc hi⟩

/-- The honest credential of the demonstration is one for these options. -/
theorem created {name : String} {handle : Bytes} {opts : PyVal}
    (h : CreationArgument name handle Run.challenge1 opts) :
    Created app.env "http://localhost:5000" opts (Run.regCredential Run.challenge1) Demo.key := by
  obtain ⟨h1, h2, -⟩ := creation_has h
  exact ⟨_, _, Run.regRaw, Run.regAd, Demo.attested, _, _, rfl, h1,
    ⟨_, (C38_base64url_encoding _).1, Run.clientData_text _ _⟩, Run.attObj_enc, Run.regRaw_enc, rfl, rfl,
    h2, Run.rpHash_enc Run.regRaw_enc rfl, Demo.flagSet_enc Run.regRaw_enc (by decide)⟩

/-- The registration of the run (an instance of `C57_registration`). -/
theorem registered : ∃ v opts f, reply app [] request = .json v ∧
    Page.creationCall (.json v) = some opts ∧ UserIdIn opts Run.handle1 ∧
    Page.registrationForm (.json v) (Run.regCredential Run.challenge1) "ada" = some f ∧
    reply app [request] (.registrationResponse f 5000) = success := by
  obtain ⟨v, hv⟩ := C57_registration_answered (app := app) (pre := []) "ada" (hd := Run.handle1)
    (ch := Run.challenge1) 0 (fun _ _ _ _ _ h => absurd h nothing) (fun _ _ _ _ h => absurd h nothing)
  obtain ⟨opts, u, h1, h2, h3, h4⟩ := C57_creation_argument hv
  have hu : u.handle = Run.handle1 := by
    obtain ⟨pre, ch, t, ho⟩ := users_requested app [request] u h2
    obtain ⟨-, e⟩ := occurs_one ho
    simp only [request, Event.registrationRequest.injEq] at e
    exact e.2.1
  obtain ⟨opts', h1', h5⟩ := C57_registration (app := app) (pre := []) Demo.codec Demo.json rows
    (by decide) hv
  rw [h1] at h1'
  cases h1'
  obtain ⟨f, h6, h7⟩ := h5 [] 5000 (Run.regCredential Run.challenge1) Demo.key Run.storedKey
    (created h4) Run.storedKey_eq (by decide) (by
      rintro pre' e' name' k' ho ⟨_, _, _, _, _, _, _, _, _, rfl, -⟩
      obtain ⟨-, h⟩ := occurs_one ho
      cases h)
  exact ⟨v, opts, f, hv, h1, hu ▸ (creation_has h4).2.2, h6, h7⟩

theorem regObj : AttObjOf app.env Run.attObj ⟨Run.regAd, .NONE, .none⟩ Run.regRaw := by
  obtain ⟨d, h1, h2, h3, h4, h5⟩ := Run.attObj_enc
  have := (Demo.codec).roundTrip h4 h5 []
  rw [List.append_nil] at this
  exact ⟨d, [], [], this, h3, encodedAuthData_of Demo.codec Run.regRaw_enc, h1, h2, rfl, rfl⟩

/-- The registered key is that of the demonstration. -/
theorem registers {v : PyVal} {f : Form} (hv : reply app [] request = .json v)
    (hf : Page.registrationForm (.json v) (Run.regCredential Run.challenge1) "ada" = some f)
    (hr : reply app [request] (.registrationResponse f 5000) = success) (k : CPK) :
    Registers app [request] (.registrationResponse f 5000) Demo.credId "ada" k ↔ k = Demo.key := by
  obtain ⟨_, n, w, -, -, hn, rfl, -⟩ := registrationRequest_json hv
  have hn : n ≤ 1 := hn
  obtain ⟨f', hf', hs⟩ := C57_registration_form (app := app) Demo.json rows (n := n) (by omega)
    "creationOptions" w (c := Run.regCredential Run.challenge1) rfl "ada"
  rw [hf] at hf'
  cases hf'
  constructor
  · rintro ⟨f', t, n', c, cdj, ob, o, raw, acd, e, -, hs', -, hc, ho, ha, hk⟩
    cases e
    obtain ⟨-, rfl, -⟩ := submits_unique hs hs'
    obtain ⟨-, rfl⟩ := Response.attestation.inj hc
    have := parseAttestationObject_ok_iff.mpr ho
    rw [parseAttestationObject_ok_iff.mpr regObj] at this
    cases this
    cases ha
    exact (Option.some.inj hk).symm
  · rintro rfl
    exact ⟨f, 5000, n, Run.regCredential Run.challenge1, _, _, _, _, _, rfl, hr, hs, rfl, rfl, regObj, rfl,
      rfl⟩

/-- The honest assertion of the demonstration is one for these options. -/
theorem asserted {ids : List Bytes} {opts : PyVal} (h : RequestArgument Run.challenge2 ids opts)
    (hid : Demo.credId ∈ ids) : Asserted app.env "http://localhost:5000" opts
      (Run.authCredential 1 Run.challenge2) Demo.key 1 (some Run.handle1) := by
  obtain ⟨h1, h2, h3⟩ := request_has h
  exact ⟨_, Run.authRaw 1, _, Run.authAd 1, _, _, rfl, h3 _ hid, h1,
    ⟨_, (C38_base64url_encoding _).1, Run.clientData_text _ _⟩, Run.authRaw_enc 1, rfl, h2,
    Run.rpHash_enc (Run.authRaw_enc 1) rfl, Demo.flagSet_enc (Run.authRaw_enc 1) (by decide),
    Run.signature_ok 1 Run.challenge2⟩

/-- Ada registers and logs in through the page (an instance of `C57_authentication`
after that of `C57_registration`). -/
theorem logged_in : ∃ v f w g, reply app [] request = .json v ∧
    Page.registrationForm (.json v) (Run.regCredential Run.challenge1) "ada" = some f ∧
    reply app [request] (.registrationResponse f 5000) = success ∧
    reply app [request, .registrationResponse f 5000]
      (.authenticationRequest (some "ada") Run.challenge2 6000) = .json w ∧
    Page.authenticationForm (.json w) (Run.authCredential 1 Run.challenge2) "ada" = some g ∧
    reply app [request, .registrationResponse f 5000,
      .authenticationRequest (some "ada") Run.challenge2 6000] (.authenticationResponse g 9000) =
      success := by
  obtain ⟨v, opts, f, hv, ho, hu, hf, hr⟩ := registered
  have reg := registers hv hf hr
  obtain ⟨_, n, x, -, -, -, hv', -⟩ := registrationRequest_json hv
  have hi : Issues app [] request n Run.challenge1 0 "ada" :=
    ⟨⟨_, _, by rw [hv, hv']⟩, Or.inl ⟨_, rfl⟩⟩
  have two : ∀ {pre e}, Occurs [request, .registrationResponse f 5000] pre e →
      (pre = [] ∧ e = request) ∨ (pre = [request] ∧ e = .registrationResponse f 5000) := by
    rintro pre e ⟨post, h⟩
    match pre, h with
    | [], h => exact Or.inl ⟨rfl, (List.cons.inj h).1.symm⟩
    | [a], h =>
      obtain ⟨h1, h⟩ := List.cons.inj h
      exact Or.inr ⟨by rw [← h1], (List.cons.inj h).1.symm⟩
    | a :: b :: l, h => exact absurd (List.cons.inj (List.cons.inj h).2).2 (by simp)
  obtain ⟨w, hw⟩ := C57_authentication_answered (app := app)
    (pre := [request, .registrationResponse f 5000]) (pre' := []) (e' := request) (ch := Run.challenge2)
    6000 (by
      rintro pre e n t name h ⟨-, ⟨_, rfl⟩ | rfl⟩
      · rcases two h with ⟨-, e⟩ | ⟨-, e⟩
        · have := (Event.registrationRequest.inj e).2.2.1
          exact absurd this (by decide)
        · cases e
      · rcases two h with ⟨-, e⟩ | ⟨-, e⟩ <;> cases e)
    ⟨_, rfl⟩ hi
  obtain ⟨opts', ids, h1, h2, -, h3⟩ := C57_request_argument hw
  obtain ⟨opts'', h1', h4⟩ := C57_authentication (app := app) Demo.codec Demo.json rows
    (by simp) hw
  rw [h1] at h1'
  cases h1'
  have hid : Demo.credId ∈ ids := (h3 _).mpr ⟨_, _, _, ⟨[], rfl⟩, (reg _).mpr rfl⟩
  obtain ⟨g, hg, hg'⟩ := h4 [] 9000 (Run.authCredential 1 Run.challenge2) Demo.key 1 (some Run.handle1)
    (asserted h2 hid) (by
      intro pre e k h hk
      rcases two h with ⟨-, rfl⟩ | ⟨rfl, rfl⟩
      · obtain ⟨_, _, _, _, _, _, _, _, _, e, -⟩ := hk
        cases e
      · exact (reg _).mp hk)
    (by
      intro h e
      cases e
      exact Or.inr ⟨[], Run.handle1, Run.challenge1, 0, opts, ⟨_, rfl⟩, by rw [← ho, ← hv]; rfl, hu⟩)
    (by decide) (by
      rintro pre e m ⟨post, h⟩ ⟨f', t, _, _, _, _, rfl, -⟩
      have : Event.authenticationResponse f' t ∈ [request, .registrationResponse f 5000,
        .authenticationRequest (some "ada") Run.challenge2 6000] := by
        have h : [request, .registrationResponse f 5000,
          .authenticationRequest (some "ada") Run.challenge2 6000] = _ := h
        rw [h]
        simp
      simp [request] at this)
  exact ⟨v, f, w, g, hv, hf, hr, hw, hg, hg'⟩

end WebAuthn.Flask.PageRun
