import Verif.Props.AutoKeys
import Verif.Props.FlaskDemo

/-!
# Accounts are deleted, concretely (C108)
-/

namespace WebAuthn.Flask.Run

open Spec Props

/-! ## The first user registers -/

def applies (name : String) (handle : Bytes) : Event := .registrationRequest (some name) handle challenge1 0

def enrols (name : String) : Event := .registrationResponse (formOf "1" (regCredential challenge1) name) 5000

theorem asked_tables (name : String) (handle : Bytes) :
    run app [applies name handle] = ⟨[⟨1, name, handle⟩], [], [⟨1, challenge1, 0, 1⟩]⟩ := rfl

theorem asked_only {name name' : String} {handle id : Bytes} {k : CPK} (pre : List Event) (e : Event)
    (h : Occurs [applies name handle] pre e) : ¬ Registers app pre e id name' k := by
  rintro ⟨f, t, n, c, cdj, ob, o, raw, acd, rfl, -⟩
  obtain ⟨post, h⟩ := h
  have : Event.registrationResponse f t ∈ [applies name handle] := by rw [h]; simp
  simp [applies] at this

theorem joins_reply (name : String) (handle : Bytes) : reply app [applies name handle] (enrols name) = success := by
  refine registration_accepted (app := app) Demo.codec Demo.json (u := ⟨1, name, handle⟩) (uid := 1)
    (n := 1) (ch := challenge1) (t := 0) (c := regCredential challenge1)
    (cdj := clientData "webauthn.create" challenge1) (ob := attObj) (acd := Demo.attested)
    (k := Demo.key) ?_ ?_ ?_ (form1 _ _) rfl (clientData_text _ _)
    (C38_base64url_encoding _).1 attObj_enc regRaw_enc ?_ ?_ storedKey_eq ?_ ?_ ?_
  · rw [asked_tables]; simp
  · rw [asked_tables]; simp
  · decide
  · rfl
  · rfl
  · exact rpHash_enc regRaw_enc rfl
  · exact Demo.flagSet_enc regRaw_enc (by decide)
  · exact fun pre e name k h => asked_only pre e h

theorem attObj_of : AttObjOf app.env attObj ⟨regAd, .NONE, .none⟩ regRaw := by
  obtain ⟨d, h1, h2, h3, h4, h5⟩ := attObj_enc
  have := (Demo.codec).roundTrip h4 h5 []
  rw [List.append_nil] at this
  exact ⟨d, [], [], this, h3, encodedAuthData_of Demo.codec regRaw_enc, h1, h2, rfl, rfl⟩

theorem joins_registers (name : String) (handle : Bytes) :
    Registers app [applies name handle] (enrols name) Demo.credId name Demo.key :=
  ⟨_, _, _, regCredential challenge1, _, _, ⟨regAd, .NONE, .none⟩, regRaw, Demo.attested, rfl, joins_reply name handle,
    form1 _ _, rfl, rfl, attObj_of, rfl, rfl⟩

theorem joined_tables (name : String) (handle : Bytes) : run app [applies name handle, enrols name] =
    ⟨[⟨1, name, handle⟩], [⟨Demo.credId, none, storedKey, 1⟩], [⟨1, challenge1, 0, 1⟩]⟩ := by
  obtain ⟨n, c, name', ch, u, o, raw, acd, k, key, h1, -, -, -, h2, -, ⟨cdj, ob, h3, -, h4, -⟩, h5, h6, h7, -, h8⟩ :=
    registration_success (joins_reply name handle)
  obtain ⟨rfl, rfl, rfl⟩ := submits_unique h1 (form1 _ _)
  rw [asked_tables, List.mem_singleton] at h2
  subst h2
  have h3 : Response.attestation _ _ = Response.attestation cdj ob := h3
  obtain ⟨-, rfl⟩ := Response.attestation.inj h3
  have h4 := parseAttestationObject_ok_iff.mpr h4
  rw [parseAttestationObject_ok_iff.mpr attObj_of] at h4
  cases h4
  cases h5
  cases h6
  rw [storedKey_eq] at h7
  cases h7
  exact h8

/-! ## The account is deleted and another made -/

/-- Eve asks for a registration. -/
def eve : Event := .registrationRequest (some "eve") handle2 challenge2 6000

/-- Ada registers, the account is deleted, and Eve asks for a registration. -/
def former : List AccountOp := [.request (applies "ada" handle1), .request (enrols "ada"), .delete "ada", .request eve]

/-- The response of Ada's authenticator, which does not say whose it is, with Eve's name. -/
def former_credential : Credential :=
  { id := "wdLj9A", type := "public-key", rawId := Demo.credId,
    response := .assertion (clientData "webauthn.get" challenge1) (authRaw 1) (signature 1 challenge1) none }

def former_login : Event := .authenticationResponse (formOf "1" former_credential "eve") 9000

theorem former_tables2 (drop : String → Db → Db) : keyedRun app drop (former.take 2) =
    ⟨[⟨1, "ada", handle1⟩], [⟨Demo.credId, none, storedKey, 1⟩], [⟨1, challenge1, 0, 1⟩]⟩ := by
  rw [show former.take 2 = [applies "ada" handle1, enrols "ada"].map .request from rfl, keyedRun_same]
  exact joined_tables _ _

/-- Eve's account has the number of Ada's, and the credential. -/
theorem former_tables : keyedRun app dropUser former = ⟨[⟨1, "eve", handle2⟩], [⟨Demo.credId, none, storedKey, 1⟩],
    [⟨1, challenge1, 0, 1⟩, ⟨2, challenge2, 6000, 1⟩]⟩ := by
  rw [show former = (former.take 2 ++ [.delete "ada"]) ++ [.request eve] from rfl, keyedRun_snoc, keyedRun_snoc,
    former_tables2]
  rfl

/-- As if the credential were Eve's. -/
def twin : List Event := [applies "eve" handle2, enrols "eve", eve]

theorem twin_tables : run app twin = ⟨[⟨1, "eve", handle2⟩], [⟨Demo.credId, none, storedKey, 1⟩],
    [⟨1, challenge1, 0, 1⟩, ⟨2, challenge2, 6000, 1⟩]⟩ := by
  rw [show twin = [applies "eve" handle2, enrols "eve"] ++ [eve] from rfl, run_snoc, joined_tables]
  rfl

theorem twin_reply : reply app twin former_login = success := by
  refine authentication_accepted (app := app) Demo.codec Demo.json (pre' := [applies "eve" handle2]) (e' := enrols "eve")
    (v := ⟨1, "eve", handle2⟩) (n := 1) (ch := challenge1) (t := 0) (uid := 1)
    (c := former_credential) (cdj := clientData "webauthn.get" challenge1)
    (raw := authRaw 1) (sig := signature 1 challenge1) (handle := none) (ad := authAd 1)
    (k := Demo.key) ?_ ?_ ?_ ⟨[eve], rfl⟩ (joins_registers _ _) (form1 _ _) rfl
    (clientData_text _ _) (C38_base64url_encoding _).1 (fun h hh => nomatch hh) (authRaw_enc 1) ?_ ?_
    (signature_ok 1 challenge1) ?_
  · rw [twin_tables]; simp
  · rw [twin_tables]; simp
  · decide
  · exact rpHash_enc (authRaw_enc 1) rfl
  · exact Demo.flagSet_enc (authRaw_enc 1) (by decide)
  · rintro pre e m ⟨post, h⟩ ⟨f, t, n, c, name, k, rfl, -⟩
    have : Event.authenticationResponse f t ∈ twin := by rw [h]; simp
    simp [twin, applies, enrols, eve] at this

theorem former_reply : keyedReply app dropUser former former_login = success :=
  (keyedReply_tables (former_tables.trans twin_tables.symm) _ _).trans twin_reply

theorem former_joined : JoinedAt (keyedReply app dropUser) app former 1 Demo.credId "ada" Demo.key := by
  obtain ⟨f, t, n, c, cdj, ob, o, raw, acd, h, h1, h2⟩ := joins_registers "ada" handle1
  exact ⟨enrols "ada", rfl, f, t, n, c, cdj, ob, o, raw, acd, h, (C108_same app dropUser [applies "ada" handle1] _).trans h1, h2⟩

end WebAuthn.Flask.Run

namespace WebAuthn.Flask

open WebAuthn.Spec WebAuthn.Props

/-- C108: if only the row of the user is deleted, whoever has a credential of a deleted account may log in
to the one that is made next. -/
theorem C108_refuted : ∃ app, CodecLaws app.env ∧ JsonLaw app.env ∧ ¬ OwnCredentials (keyedReply app dropUser) app := by
  refine ⟨Run.app, Demo.codec, Demo.json, fun h => ?_⟩
  obtain ⟨i, k, _, _, _, _, ⟨e, h1, f, t, n, c, cdj, ob, o, raw, acd, rfl, -, h2, -⟩, -⟩ :=
    h Run.former _ _ _ _ _ Run.former_reply (Run.form1 _ _)
  have : AccountOp.request (.registrationResponse f t) ∈ Run.former := List.mem_of_getElem? h1
  simp only [Run.former, List.mem_cons, List.not_mem_nil, or_false, AccountOp.request.injEq, reduceCtorEq, Run.applies,
    Run.eve, false_or, Run.enrols] at this
  cases this
  have := (submits_unique h2 (Run.form1 _ _)).2.2
  simp at this

end WebAuthn.Flask

namespace WebAuthn.Flask.Run

open Spec Props

/-- C108: it is with the credential that Ada registered. -/
theorem C108_instance_partial : JoinedAt (keyedReply app dropUser) app former 1 Demo.credId "ada" Demo.key ∧
    keyedReply app dropUser former former_login = success :=
  ⟨former_joined, former_reply⟩

/-- C108: with the other rows deleted too, the login fails, under the old name and the new one. -/
theorem C108_instance : keyedReply app dropAccount former former_login ≠ success ∧
    keyedReply app dropAccount (former.take 3) e4 ≠ success ∧ keyedReply app dropAccount (former.take 2) e4 = success := by
  have key : ∀ name (i : Nat) k, JoinedAt (keyedReply app dropAccount) app former i Demo.credId name k →
      i = 1 ∧ name = "ada" := by
    rintro name i k ⟨e, h1, f, t, n, c, cdj, ob, o, raw, acd, rfl, -, h2, -⟩
    match i, h1 with
    | 0, h1 => cases h1
    | 1, h1 =>
      cases h1
      exact ⟨rfl, (submits_unique h2 (form1 _ _)).2.2⟩
    | 2, h1 => cases h1
    | 3, h1 => cases h1
    | i + 4, h1 => cases h1
  refine ⟨fun h => ?_, ?_, ?_⟩
  · obtain ⟨i, k, _, _, _, _, h1, -⟩ := C108_account_registered app Demo.codec former _ _ _ _ _ h (form1 _ _)
    have := (key _ _ _ h1).2
    simp at this
  · refine C108_account_gone (j := 2) Demo.codec (form1 _ _) rfl ?_
    rintro i k hi ⟨e, h1, -⟩
    have := (List.getElem?_eq_some_iff.mp h1).1
    have : (former.take 3).length = 3 := rfl
    omega
  · rw [show former.take 2 = [applies "ada" handle1, enrols "ada"].map .request from rfl, C108_same]
    refine authentication_accepted (app := app) Demo.codec Demo.json (pre' := [applies "ada" handle1]) (e' := enrols "ada")
      (v := ⟨1, "ada", handle1⟩) (n := 1) (ch := challenge1) (t := 0) (uid := 1)
      (c := authCredential 1 challenge1) (cdj := clientData "webauthn.get" challenge1)
      (raw := authRaw 1) (sig := signature 1 challenge1) (handle := some handle1) (ad := authAd 1)
      (k := Demo.key) ?_ ?_ ?_ ⟨[], rfl⟩ (joins_registers _ _) (form1 _ _) rfl
      (clientData_text _ _) (C38_base64url_encoding _).1 (fun h hh => Option.some.inj hh) (authRaw_enc 1) ?_ ?_
      (signature_ok 1 challenge1) ?_
    · rw [joined_tables]; simp
    · rw [joined_tables]; simp
    · decide
    · exact rpHash_enc (authRaw_enc 1) rfl
    · exact Demo.flagSet_enc (authRaw_enc 1) (by decide)
    · rintro pre e m ⟨post, h⟩ ⟨f, t, n, c, name, k, rfl, -⟩
      have : Event.authenticationResponse f t ∈ [applies "ada" handle1, enrols "ada"] := by rw [h]; simp
      simp [applies, enrols] at this

/-- Ada and Bob ask for a registration, Ada registers, and Bob's account is deleted. -/
def without : List AccountOp := [.request e1, .request e2, .request e3, .delete "bob"]

/-- C108: Ada logs in all the same. -/
theorem C108_instance_served : keyedReply app dropAccount without
    (.authenticationResponse (formOf "1" former_credential "ada") 9000) = success := by
  have kept : ∀ i, ¬ DeletedAfter without i "ada" := by
    rintro i ⟨j, -, h⟩
    have := List.mem_of_getElem? h
    simp [without] at this
  refine C108_account_served (i := 0) (j := 2) (t := 0) (ch := challenge1) (c := former_credential)
    (cdj := clientData "webauthn.get" challenge1) (raw := authRaw 1) (sig := signature 1 challenge1) (handle := none)
    (ad := authAd 1) (k := Demo.key) Demo.codec Demo.json ?_ (kept _) (by decide) ?_ (kept _) (form1 _ _) rfl
    (clientData_text _ _) (C38_base64url_encoding _).1 (fun h hh => nomatch hh) (authRaw_enc 1) ?_ ?_
    (signature_ok 1 challenge1) ?_
  · refine ⟨e1, rfl, ?_, issues1.2⟩
    obtain ⟨key, v, h⟩ := issues1.1
    exact ⟨key, v, (C108_same app dropAccount [] e1).trans h⟩
  · obtain ⟨f, t, n, c, cdj, ob, o, raw, acd, h, h1, h2⟩ := registers3
    exact ⟨e3, rfl, f, t, n, c, cdj, ob, o, raw, acd, h, (C108_same app dropAccount [e1, e2] _).trans h1, h2⟩
  · exact rpHash_enc (authRaw_enc 1) rfl
  · exact Demo.flagSet_enc (authRaw_enc 1) (by decide)
  · rintro l m - ⟨f, t, n, c, name, h, -⟩
    have := List.mem_of_getElem? h
    simp [without, e1, e2, e3] at this

/-- C108: and Bob is not known any more. -/
theorem C108_instance_name (ch : Bytes) (t : Int) : keyedReply app dropAccount without
    (.authenticationRequest (some "bob") ch t) = .text "User not registered" 400 := by
  refine C108_account_name app _ _ _ _ fun i h => ⟨3, ?_, rfl⟩
  obtain ⟨hd, ch, t, h⟩ := h
  match i, h with
  | 0, _ => decide
  | 1, _ => decide
  | 2, _ => decide
  | 3, h => cases h
  | i + 4, h => cases h

/-- C108: with keys that are not used again Eve's account has the number 2, and the login fails. -/
theorem C108_instance_repaired : (autoRun app dropUser former).1.users = [⟨2, "eve", handle2⟩] ∧
    autoReply app dropUser former former_login ≠ success := by
  refine ⟨?_, fun h => ?_⟩
  · rw [show former = (former.take 2 ++ [.delete "ada"]) ++ [.request eve] from rfl, autoRun_snoc, autoRun_snoc,
      show former.take 2 = [applies "ada" handle1, enrols "ada"].map .request from rfl, autoRun_same, joined_tables]
    rfl
  · obtain ⟨i, k, _, _, _, _, ⟨e, h1, f, t, n, c, cdj, ob, o, raw, acd, rfl, -, h2, -⟩, -⟩ :=
      C108_repaired app Demo.codec former _ _ _ _ _ h (form1 _ _)
    have : AccountOp.request (.registrationResponse f t) ∈ former := List.mem_of_getElem? h1
    simp only [former, List.mem_cons, List.not_mem_nil, or_false, AccountOp.request.injEq, reduceCtorEq, applies,
      eve, false_or, enrols] at this
    cases this
    have := (submits_unique h2 (form1 _ _)).2.2
    simp at this

end WebAuthn.Flask.Run
