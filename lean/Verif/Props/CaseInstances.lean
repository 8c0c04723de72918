import Verif.Props.BindingFlask
import Verif.Props.RenamingDemo
import Verif.Props.SomeCredential
import Verif.Props.Client
import Verif.Props.SweptDemo
import Verif.Props.RestoreDemo
import Verif.Props.GuardsDemo
import Verif.Props.AndroidDemo
import Verif.Props.UnsignedDemo
import Verif.Props.SeparationDemo
import Verif.Props.MoreInstances
import Verif.Props.ClientText
import Verif.Props.Choosy
import Verif.Props.BindingDemo
import Verif.Props.WholeDemo
import Verif.Props.KeyUse

/-!
# Further concrete cases
-/

namespace WebAuthn.Flask.Run

open WebAuthn WebAuthn.Spec WebAuthn.Props WebAuthn.Flask

/-- C93: Ada, who logs in, has registered. -/
example : HasRegistered (reply app) app [e1, e2, e3] "ada" :=
  C93_login_partial Demo.codec reply4 (form1 _ _)

/-- C103: the handle of Bob was drawn for Bob. -/
example : ∃ ch t, .registrationRequest (some "bob") handle2 ch t ∈ [e1, e2] :=
  C103_drawn app [e1, e2] (u := ⟨2, "bob", handle2⟩) (by rw [run2]; simp)

/-- C95: the tables of users and credentials after the login are those of the application. -/
example : (sweptRun app ([e1, e2, e3] ++ [e4])).db.credentials = (run app ([e1, e2, e3] ++ [e4])).credentials :=
  (C95_repaired_rows swept_clock swept_fresh).2

/-- C84: the registration with an id of 16 bytes, behind all checks. -/
example : KeyAlg Demo.key .ES256 ∧ Profile Demo.key :=
  C84_good_key (by simp [allGuards]) sign16_registers

/-- C84: its id is the attested one. -/
example : id16 = regCredential16.rawId :=
  C84_attested_id (by simp [allGuards]) sign16_reply (form1 _ _) rfl attObj16_of rfl

theorem again_reply : restoredReply app (again.take 5) e4 = success := (restoredReply_known _ _ _).trans reply4

theorem again_stands2 : Stands (again.take 5) 2 :=
  .restored [.request e1, .request e2, .request e3, .request e4] 3 2 (.now [.request e1, .request e2] e3)

/-- C101: the login that is accepted again needs a registration that stands, … -/
example : ∃ n c name i k cdj raw sig handle, Submits app (formOf "1" (authCredential 1 challenge1) "ada") n c name ∧
    Stands (again.take 5) i ∧ RegistersAt (restoredReply app) app (again.take 5) i c.rawId name k ∧
      c.response = .assertion cdj raw sig handle ∧ SignedBy app.env k sig (raw ++ app.env.sha256 cdj) :=
  C101_registered Demo.codec again_reply

/-- … and a challenge that stands, … -/
example : ∃ i ch t' name' d text, Stands (again.take 5) i ∧
    IssuesAt (restoredReply app) (again.take 5) i 1 ch t' name' ∧ 9000 - t' ≤ 60000 ∧
    ClientJson app.env (authCredential 1 challenge1).response.clientDataJSON d ∧
    Lookup d (.str "challenge") (.str text) ∧ Base64UrlText text ch :=
  C101_fresh (e := e4) (t := 9000) (n := 1) (c := authCredential 1 challenge1) (name := "ada")
    ⟨again_reply, _, Or.inr rfl, form1 _ _⟩

/-- … and was approved. -/
example : ∃ a i ch t' name'', acts a ∧ Approves app.env a (authCredential 1 challenge1) ch ∧
    Stands (again.take 5) i ∧ IssuesAt (restoredReply app) (again.take 5) i 1 ch t' name'' ∧
    9000 - t' ≤ 60000 :=
  (C101_approved Demo.codec Demo.json (steps := again.take 5) (j := 2) (n := 1) (name := "ada")
    (name' := "ada") (c := authCredential 1 challenge1) again_holder again_stands2
    (registersAt_iff.mpr ⟨e3, rfl, registers3⟩) again_reply (form1 _ _)).2

end WebAuthn.Flask.Run

namespace WebAuthn.Props

open WebAuthn.Spec

/-- C72: the key of the registration is consistent. -/
example : ∃ k, Attests Demo.env Demo.regArgs.credential k ∧ KeyConsistent k :=
  C72_family_partial (Demo.registration_ok [] rfl)

/-- C90: the chain of the U2F statement. -/
example : ∃ certs, some [U2F.cert] = some certs ∧ ChainOf Demo.env [U2F.certBytes] certs :=
  C90_fido_u2f (C21_fido_u2f_exact.mpr ⟨_, U2F.valid, rfl⟩ :
    attest Demo.env (.fidoU2F U2F.sig [U2F.certBytes]) (.attObj U2F.att) Demo.regRaw
      (Demo.env.sha256 Demo.regCdj) = .ok (.BASIC, some [U2F.cert]))

/-- C92: the client data of the registration begin with no mark. -/
example : ∃ cd, parseClientData Demo.env Demo.regCdj = .ok cd ∧ StandardClientData Demo.env Demo.regCdj cd := by
  obtain ⟨cd, h, -⟩ := Demo.regCdj_bound
  exact ⟨cd, parseClientData_ok_iff.mpr h, (C92_client_data_partial (unmarked_of Demo.refuses_mark h)).mp
    (parseClientData_ok_iff.mpr h)⟩

/-- C86: other statements are attested as before. -/
example (o : AttObjArg) (raw hash : Bytes) :
    Repaired.attest Demo.env .none o raw hash = attest Demo.env .none o raw hash :=
  C86_repaired_others fun _ _ h => by cases h

/-- C35: a key with something behind it. -/
example : parseCoseKeyBytes Demo.env (Demo.keyBytes ++ [1, 2, 3]) = .ok Demo.key :=
  C35_trailing_data_ignored_key Demo.stream demo_key_parses _

/-- C83: a registration and a login. -/
example : ∃ cdj raw sig handle alg, Demo.authArgs.credential.response = .assertion cdj raw sig handle ∧
    SignedAs Demo.env Demo.key sig (raw ++ Demo.env.sha256 cdj) alg ∧ Permits (baseOf Demo.key) alg :=
  C83_registered_partial (Demo.registration_ok [] rfl) (Demo.authentication_ok []) (cd := Demo.stored 1)
    (Demo.get_one []) ⟨_, _, _, _, _, rfl, Whole.none_of, rfl, rfl⟩ (by intro ops h; cases h)

end WebAuthn.Props
