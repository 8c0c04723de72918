import Verif.Props.Binding
import Verif.Props.DemoRich

/-!
# Token bindings, concretely (C102)
-/

namespace WebAuthn.Demo

open WebAuthn WebAuthn.Spec WebAuthn.Spec.JsonGrammar WebAuthn.Props

/-! ## A client that knows token bindings, on a connection without -/

def offeredText (type challenge origin : String) : String := String.ofList ('{' ::
  (ccdToString "tokenBinding" ++ ':' :: ('{' ::
    (ccdToString "status" ++ ':' :: ccdToString "supported" ++ ['}'])) ++ ',' ::
  (ccdToString "origin" ++ ':' :: ccdToString origin ++ ',' ::
  (ccdToString "challenge" ++ ':' :: ccdToString challenge ++ ',' ::
  (ccdToString "type" ++ ':' :: ccdToString type ++ ['}'])))))

def offeredDict (type challenge origin : String) : Dict := [
  (.str "tokenBinding", .dict [(.str "status", .str "supported")]),
  (.str "origin", .str origin), (.str "challenge", .str challenge), (.str "type", .str type)]

theorem jsonText_offered (type challenge origin : String) :
    JsonText (offeredText type challenge origin) (.dict (offeredDict type challenge origin)) := by
  have s : ∀ n x, IsValue n (ccdToString x) (.str x) := fun n x =>
    isValue_scalar (.str _ _ (isString_ccd x))
  have inner : IsValue 99 ('{' :: (ccdToString "status" ++ ':' :: ccdToString "supported" ++ ['}']))
      (.dict (dictOf [("status", .str "supported")])) :=
    isValue_object (isMembers_last (isString_ccd _) (s 98 _))
      (by simp only [List.map_cons, List.map_nil]; decide)
  exact jsonText_of (isValue_object (ms := [("tokenBinding", .dict (dictOf [("status", .str "supported")])),
      ("origin", .str origin), ("challenge", .str challenge), ("type", .str type)])
    (isMembers_cons (isString_ccd _) inner
      (isMembers_cons (isString_ccd _) (s _ _) (isMembers_cons (isString_ccd _) (s _ _)
        (isMembers_last (isString_ccd _) (s _ _)))))
    (by simp only [List.map_cons, List.map_nil]; decide))

def offered : ClientTokenBinding := ⟨.SUPPORTED, .none⟩

theorem clientData_offered (type challenge origin : String) :
    ClientDataText type challenge origin (some offered)
      (utf8Encode (offeredText type challenge origin)) :=
  ⟨_, _, rfl, jsonText_offered type challenge origin, lookup_iff.mpr rfl, lookup_iff.mpr rfl,
    lookup_iff.mpr rfl, [(.str "status", .str "supported")],
    lookup_iff.mpr rfl, Or.inl ⟨rfl, lookup_iff.mpr rfl⟩, Or.inr ⟨absent_iff.mpr rfl, rfl⟩⟩

def offeredCdj : Bytes := utf8Encode (offeredText "webauthn.create" challengeText origin)

def offeredArgs (tb : Option TokenBinding) : AttestationArgs :=
  { regArgs with
    credential := { regCredential with response := .attestation offeredCdj attObj }, tokenBinding := tb }

theorem offered_ok (s : Store) (hs : lookup s credId = none) :
    handleAttestation env registrar (offeredArgs (some ⟨.SUPPORTED, none⟩)) s =
      (.ok (), (credId, stored 1) :: s) :=
  C52_honest_registration codec json (a := offeredArgs _) rfl (clientData_offered _ _ _) challengeText_ok
    attObj_enc regRaw_enc
    rfl (rpHash_enc regRaw_enc rfl) (flagSet_enc regRaw_enc (by decide))
    (fun _ => flagSet_enc regRaw_enc (by decide)) (by intro l hl; cases hl) expected_ok
    (originAllowed_of expected_ok (by simp [originList, offeredArgs, regArgs])) (.noId _)
    (by
      show (match lookup s credId with | some _ => _ | none => _) = _
      rw [hs]
      rfl)

/-- What the client data denotes. -/
theorem clientDataOf_text {type challenge origin : String} {tb : Option ClientTokenBinding} {cdj : Bytes}
    (h : ClientDataText type challenge origin tb cdj) :
    ∃ cd, ClientDataOf env cdj cd ∧ cd.tokenBinding = tb := by
  obtain ⟨text, d, h1, h2, h3, h4, h5, h6⟩ := h
  exact ⟨⟨type, challenge, origin, tb⟩, ⟨d, ⟨text, h1, json _ _ h2⟩, h3, h4, h5, h6⟩, rfl⟩

theorem regCdj_bound : RightlyBound env none regCdj := by
  obtain ⟨cd, h, e⟩ := clientDataOf_text (clientData_client (type := "webauthn.create")
    (challenge := challengeText) (origin := origin) rfl)
  exact ⟨cd, h, e ▸ .unknown⟩

theorem offeredCdj_bound : RightlyBound env none offeredCdj := by
  obtain ⟨cd, h, e⟩ := clientDataOf_text (clientData_offered "webauthn.create" challengeText origin)
  exact ⟨cd, h, e ▸ .supported⟩

theorem richRegCdj_bound : RightlyBound env (some bindingId) richRegCdj := by
  obtain ⟨cd, h, e⟩ := clientDataOf_text (clientData_bound "webauthn.create" challengeText origin)
  exact ⟨cd, h, e ▸ .present _⟩

theorem richAuthCdj_bound : RightlyBound env (some bindingId) richAuthCdj := by
  obtain ⟨cd, h, e⟩ := clientDataOf_text (clientData_bound "webauthn.get" challengeText origin)
  exact ⟨cd, h, e ▸ .present _⟩

/-- On a connection without token binding both clients are accepted with the chosen argument. -/
theorem C102_instance_unknown :
    handleAttestation env registrar
      { regArgs with tokenBinding := chosenBinding env none regArgs.credential.response } [] =
      (.ok (), [(credId, stored 1)]) :=
  ((C102_chosen env registrar [] _).1 none regArgs).mpr
    ⟨⟨none, registration_ok [] rfl⟩, _, .attestation _ _, regCdj_bound⟩

theorem C102_instance_offered :
    handleAttestation env registrar
      (offeredArgs (chosenBinding env none (.attestation offeredCdj attObj))) [] =
      (.ok (), [(credId, stored 1)]) :=
  ((C102_chosen env registrar [] _).1 none (offeredArgs none)).mpr
    ⟨⟨some ⟨.SUPPORTED, none⟩, offered_ok [] rfl⟩, _, .attestation _ _, offeredCdj_bound⟩

/-- On a connection with the token binding the client reports, the authentication is accepted. -/
theorem C102_instance_authentication :
    handleAssertion env registrar
      { richAuthArgs with
        tokenBinding := chosenBinding env (some bindingId) richAuthArgs.credential.response }
      [(credId, richStored 5)] = (.ok (), [(credId, richStored 4), (credId, richStored 5)]) :=
  ((C102_chosen env registrar [(credId, richStored 5)] _).2 (some bindingId) richAuthArgs).mpr
    ⟨⟨some ⟨.PRESENT, some bindingId⟩, rich_authentication_ok []⟩, _, .assertion _ _ _ _,
      richAuthCdj_bound⟩

/-- On a connection with another it is refused, and on one with none. -/
theorem C102_instance_refused (used : Option String) (h : used ≠ some bindingId) (s s' : Store) :
    handleAssertion env registrar
      { richAuthArgs with tokenBinding := chosenBinding env used richAuthArgs.credential.response } s ≠
      (.ok (), s') := by
  intro he
  obtain ⟨-, cdj, hc, cd, h1, h2⟩ := ((C102_chosen env registrar s s').2 used richAuthArgs).mp he
  have hcdj : cdj = richAuthCdj := by
    have : HasClientData (.assertion richAuthCdj richAuthRaw richSignature none) cdj := hc
    rw [hasClientData_iff] at this
    exact this.symm
  rw [hcdj] at h1
  obtain ⟨cd', h3, e⟩ := clientDataOf_text (clientData_bound "webauthn.get" challengeText origin)
  rw [clientDataOf_unique h1 h3, e] at h2
  cases h2
  exact h rfl

/-- **C102** Callers have to look into the client data: whatever argument they find
from the state of the connection, they refuse a client that reported it rightly. -/
theorem C102_connection_alone : ∃ (env : Env) (reg : Registrar Store) (s s' : Store),
    ∀ choose : Option String → Option TokenBinding,
      ¬ ChoosesRight env (fun used _ => choose used)
        (fun a => handleAttestation env reg a s = (.ok (), s'))
        (fun a => handleAssertion env reg a s = (.ok (), s')) := by
  refine ⟨env, registrar, [], [(credId, stored 1)], fun choose h => ?_⟩
  have h1 := (h.1 none regArgs).mpr
    ⟨⟨none, registration_ok [] rfl⟩, _, .attestation _ _, regCdj_bound⟩
  have h2 := (h.1 none (offeredArgs none)).mpr
    ⟨⟨some ⟨.SUPPORTED, none⟩, offered_ok [] rfl⟩, _, .attestation _ _, offeredCdj_bound⟩
  obtain ⟨c, hc, ec⟩ := clientDataOf_text (clientData_client (type := "webauthn.create")
    (challenge := challengeText) (origin := origin) rfl)
  obtain ⟨d, hd, ed⟩ := clientDataOf_text (clientData_offered "webauthn.create" challengeText origin)
  have := C102_one_report_registration h1 h2 rfl (.attestation _ _) (.attestation _ _) hc hd
  rw [ec, ed] at this
  cases this

end WebAuthn.Demo
