import Verif.Model.Page
import Verif.Spec.Flask
import Verif.Spec.Options
import Verif.Spec.Honest

/-!
# Specification of the page of the example application

What the page passes to the browser, and what an honest browser and authenticator
make of it.
-/

namespace WebAuthn.Flask

open WebAuthn WebAuthn.Spec

/-! ## The options that the browser gets -/

/-- A byte array. -/
def IsBytes (b : Bytes) : Check := fun v => v = .bytes b

/-- The argument of `navigator.credentials.create` (Web Authentication, section
5.4) in the example application; a member without a condition is absent. -/
def CreationArgument (name : String) (handle challenge : Bytes) : Check :=
  Members [("publicKey", some (Members [
    ("rp", some (Members [("name", some (IsText "localhost")), ("icon", none),
      ("id", some (IsText "localhost"))])),
    ("user", some (Members [("name", some (IsText name)), ("icon", none),
      ("id", some (IsBytes handle)), ("displayName", some (IsText name))])),
    ("challenge", some (IsBytes challenge)),
    ("pubKeyCredParams", some fun v => ∃ p, v = .list [p] ∧
      Members [("type", some (IsText "public-key")), ("alg", some (IsInt (-7)))] p),
    ("timeout", some (IsInt 60000)),
    ("excludeCredentials", none),
    ("authenticatorSelection", none),
    ("attestation", some (IsText "none")),
    ("extensions", none)]))]

/-- The argument of `navigator.credentials.get` (Web Authentication, section 5.5)
in the example application. -/
def RequestArgument (challenge : Bytes) (ids : List Bytes) : Check :=
  Members [("mediation", some (IsText "optional")), ("publicKey", some (Members [
    ("challenge", some (IsBytes challenge)),
    ("timeout", some (IsInt 60000)),
    ("rpId", some (IsText "localhost")),
    ("allowCredentials", some fun v => ∃ vs, v = .list vs ∧ List.Forall₂ (fun id =>
      Members [("type", some (IsText "public-key")), ("id", some (IsBytes id)),
        ("transports", none)]) ids vs),
    ("userVerification", some (IsText "preferred")),
    ("extensions", none)]))]

/-! ## What the browser reads in them -/

/-- `opts.publicKey` has the members `d`. -/
def PublicKeyIn (opts : PyVal) (d : Dict) : Prop :=
  ∃ o, opts = .dict o ∧ Lookup o (.str "publicKey") (.dict d)

def ChallengeIn (opts : PyVal) (ch : Bytes) : Prop :=
  ∃ d, PublicKeyIn opts d ∧ Lookup d (.str "challenge") (.bytes ch)

/-- `opts.publicKey.user.id`. -/
def UserIdIn (opts : PyVal) (h : Bytes) : Prop :=
  ∃ d u, PublicKeyIn opts d ∧ Lookup d (.str "user") (.dict u) ∧ Lookup u (.str "id") (.bytes h)

/-- `opts.publicKey.rp.id`, of a creation. -/
def RpIdIn (opts : PyVal) (rp : String) : Prop :=
  ∃ d r, PublicKeyIn opts d ∧ Lookup d (.str "rp") (.dict r) ∧ Lookup r (.str "id") (.str rp)

/-- `opts.publicKey.rpId`, of a request. -/
def RequestRpIdIn (opts : PyVal) (rp : String) : Prop :=
  ∃ d, PublicKeyIn opts d ∧ Lookup d (.str "rpId") (.str rp)

/-- `id` is that of an element of `opts.publicKey.allowCredentials`. -/
def AllowedIn (opts : PyVal) (id : Bytes) : Prop :=
  ∃ d vs c, PublicKeyIn opts d ∧ Lookup d (.str "allowCredentials") (.list vs) ∧ .dict c ∈ vs ∧
    Lookup c (.str "id") (.bytes id)

/-! ## An honest browser and authenticator -/

/-- Client data of the type `type` for the challenge and origin, without a token
binding (Web Authentication, section 5.8.1). -/
def ClientDataFor (type : String) (ch : Bytes) (origin : String) (cdj : Bytes) : Prop :=
  ∃ text, Base64UrlText text ch ∧ ClientDataText type text origin none cdj

/-- What an honest browser returns on a page of the origin for the creation options
`opts`, when the authenticator makes the key `k` and no attestation is conveyed. -/
def Created (env : Env) (origin : String) (opts : PyVal) (c : Credential) (k : CPK) : Prop :=
  ∃ cdj ob raw ad acd ch rp, c.response = .attestation cdj ob ∧
    ChallengeIn opts ch ∧ ClientDataFor "webauthn.create" ch origin cdj ∧
    EncodedNoneAttestation env raw ob ∧ EncodedAuthData env ad raw ∧
    ad.attested = some acd ∧ acd.credentialPublicKey = some k ∧
    RpIdIn opts rp ∧ RpHashOk env raw rp ∧ FlagSet raw 0

/-- What an honest browser returns on a page of the origin for the request options
`opts`, when the authenticator uses the key `k`, the counter `m` and the handle
`handle`. -/
def Asserted (env : Env) (origin : String) (opts : PyVal) (c : Credential) (k : CPK) (m : Nat)
    (handle : Option Bytes) : Prop :=
  ∃ cdj raw sig ad ch rp, c.response = .assertion cdj raw sig handle ∧ AllowedIn opts c.rawId ∧
    ChallengeIn opts ch ∧ ClientDataFor "webauthn.get" ch origin cdj ∧
    EncodedAuthData env ad raw ∧ ad.signCount = m ∧
    RequestRpIdIn opts rp ∧ RpHashOk env raw rp ∧ FlagSet raw 0 ∧
    SignedBy env k sig (raw ++ env.sha256 cdj)

/-- The handle was given to the browser when `name` registered. -/
def HandleGiven (app : App) (evs : List Event) (name : String) (h : Bytes) : Prop :=
  ∃ pre hd ch t opts, Occurs evs pre (.registrationRequest (some name) hd ch t) ∧
    Page.creationCall (reply app pre (.registrationRequest (some name) hd ch t)) = some opts ∧
    UserIdIn opts h

/-! ## What is assumed of SQLite -/

/-- SQLite takes a decimal text for the number. -/
def RowIdLaw (app : App) : Prop := ∀ n : Nat, app.rowId (toString n) = some n

/-- The credential as the page submits it: an empty handle is left out. -/
def submitted (c : Credential) : Credential :=
  match c.response with
  | .assertion cdj raw sig (some []) => { c with response := .assertion cdj raw sig none }
  | _ => c

end WebAuthn.Flask
