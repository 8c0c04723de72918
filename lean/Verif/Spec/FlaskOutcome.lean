import Verif.Spec.FlaskThreads
import Verif.Spec.Options
import Verif.Spec.OutcomeInput

/-!
# The outcome of every request to the example application

The reply and the tables afterwards, for every request and all contents of the tables,
said by the rows of the tables and not by the queries.
-/

namespace WebAuthn.Flask

open WebAuthn WebAuthn.Spec

/-! ## Options -/

/-- The creation options for a user with a name and a handle, in JSON. -/
def CreationReply (name : String) (handle challenge : Bytes) : Check :=
  CreationJson {
    rp := { name := "localhost", id := "localhost" }
    user := { name := name, id := handle, displayName := name }
    challenge := challenge
    pubKeyCredParams := { items := [⟨.value .ES256⟩] }
    timeout := some 60000
    excludeCredentials := none
    authenticatorSelection := none
    attestation := .NONE
    extensions := none }

/-- The request options with the ids of the credentials that are allowed, in JSON. -/
def RequestReply (ids : List Bytes) (challenge : Bytes) : Check :=
  RequestJson {
    mediation := .OPTIONAL
    challenge := challenge
    timeout := some 60000
    rpId := some "localhost"
    allowCredentials := some { items := ids.map fun id => { id := id } }
    userVerification := some .PREFERRED
    extensions := none }

/-- The user of a registration request: the one with the name, or a new one; and the
table of users after it. -/
inductive UserFor (db : Db) (name : String) (newHandle : Bytes) : User → List User → Prop
  | known (u : User) : u ∈ db.users → u.username = name → UserFor db name newHandle u db.users
  | new : (∀ u ∈ db.users, u.username ≠ name ∧ u.handle ≠ newHandle) →
      UserFor db name newHandle ⟨db.users.length + 1, name, newHandle⟩
        (db.users ++ [⟨db.users.length + 1, name, newHandle⟩])

/-! ## Forms -/

/-- The form can be read. -/
def Readable (app : App) (f : Form) (challengeID : String) (c : Credential) (name : String) : Prop :=
  ∃ text d, f.challengeID = some challengeID ∧ f.credential = some text ∧
    app.env.jsonLoads text = .ok (.dict d) ∧ CredentialOf d c ∧ f.username = some name

/-- Reading the form raises what is not an `Exception`. -/
def Interrupted (app : App) (f : Form) (e : Exc) : Prop :=
  ∃ text, f.challengeID ≠ none ∧ f.credential = some text ∧ app.env.jsonLoads text = .error e ∧
    ¬ IsInstance e .Exception

/-- The form of a response is read at the time `now`: the credential, the row of the
challenge and that of the user. -/
structure Read (app : App) (Kind : Response → Prop) (f : Form) (now : Int) (db : Db) (c : Credential)
    (ch : Challenge) (u : User) : Prop where
  cid : ∃ cid, Readable app f cid c u.username ∧ app.rowId cid = some ch.id
  kind : Kind c.response
  challenge : ch ∈ db.challenges
  user : u ∈ db.users
  time : now - ch.timestamp ≤ 60000

/-- The form of a response is refused. -/
inductive Unread (app : App) (Kind : Response → Prop) (f : Form) (now : Int) (db : Db) : Reply → Prop
  | interrupted (e : Exc) : Interrupted app f e → Unread app Kind f now db (.crash e)
  | unreadable : (∀ e, ¬ Interrupted app f e) → (∀ cid c name, ¬ Readable app f cid c name) →
      Unread app Kind f now db (.text "Could not parse input data" 400)
  | kind (cid : String) (c : Credential) (name : String) : Readable app f cid c name →
      ¬ Kind c.response → Unread app Kind f now db (.text "Invalid response type" 400)
  | challenge (cid : String) (c : Credential) (name : String) : Readable app f cid c name →
      Kind c.response → (∀ ch ∈ db.challenges, app.rowId cid ≠ some ch.id) →
      Unread app Kind f now db (.text "Could not find challenge matching given id" 400)
  | user (cid : String) (c : Credential) (name : String) (ch : Challenge) :
      Readable app f cid c name → Kind c.response → ch ∈ db.challenges →
      app.rowId cid = some ch.id → (∀ u ∈ db.users, u.username ≠ name) →
      Unread app Kind f now db (.text "Invalid username" 400)
  | late (cid : String) (c : Credential) (ch : Challenge) (u : User) :
      Readable app f cid c u.username → Kind c.response → ch ∈ db.challenges →
      app.rowId cid = some ch.id → u ∈ db.users → 60000 < now - ch.timestamp →
      Unread app Kind f now db (.text "Timeout" 408)

def ForRegistration (r : Response) : Prop := ∃ cdj ob, r = .attestation cdj ob

def ForLogin (r : Response) : Prop := ∃ cdj raw sig handle, r = .assertion cdj raw sig handle

/-! ## Ceremonies -/

/-- What the client is told of the result of a ceremony. -/
inductive Told (message : String) : Py Unit → Reply → Prop
  | success : Told message (.ok ()) (.text "Success" 200)
  | refused (e : Exc) : IsInstance e .WebAuthnRPError → Told message (.error e) (.text message 400)
  | crashed (e : Exc) : ¬ IsInstance e .WebAuthnRPError → Told message (.error e) (.crash e)

def entityOf (u : User) : UserEntity := { name := u.username, id := u.handle, displayName := u.username }

/-- The arguments of the registration ceremony. -/
def RegistrationCall (c : Credential) (ch : Challenge) (u : User) : AttestationArgs where
  credential := c
  user := entityOf u
  rp := { name := "localhost", id := "localhost" }
  expectedChallenge := ch.request
  expectedOrigin := .one "http://localhost:5000"

/-- The arguments of the authentication ceremony. -/
def LoginCall (c : Credential) (ch : Challenge) (u : User) : AssertionArgs where
  credential := c
  user := some (entityOf u)
  rp := some { name := "localhost", id := "localhost" }
  expectedChallenge := ch.request
  expectedOrigin := .one "http://localhost:5000"

/-- The registration is acceptable to the ceremony, and the attested key is `k`. -/
def Attests (app : App) (c : Credential) (ch : Challenge) (u : User) (k : CPK) : Prop :=
  ∃ o raw acd, AttestationOk app.env (RegistrationCall c ch u) o raw ∧ o.attStmt = .none ∧
    o.authData.attested = some acd ∧ acd.credentialPublicKey = some k

/-- A credential as it is stored, by its row. -/
def StoredAs (app : App) (db : Db) (row : CredentialRow) (cd : CredentialData) : Prop :=
  ∃ d rest v, app.env.cborLoad row.key = .ok (.dict d, rest) ∧ CoseKeyOf d cd.publicKey ∧
    v ∈ db.users ∧ v.id = row.userId ∧ cd.signatureCount = row.count ∧ cd.user = entityOf v ∧
    cd.rp = none

/-! ## Requests -/

/-- The reply to a request and the tables after it.  `.other 0` is the
`IntegrityError` of SQLAlchemy: an `Exception`, but not an error of the library. -/
inductive Outcome (app : App) (db : Db) : Event → Reply → Db → Prop
  -- registration request
  | registrationNoName (h ch : Bytes) (t : Int) :
      Outcome app db (.registrationRequest none h ch t) (.text "Bad Request" 400) db
  | handleTaken (name : String) (h ch : Bytes) (t : Int) (v : User) :
      (∀ u ∈ db.users, u.username ≠ name) → v ∈ db.users → v.handle = h →
      Outcome app db (.registrationRequest (some name) h ch t) (.crash (.other 0)) db
  | registrationChallengeTaken (name : String) (h ch : Bytes) (t : Int) (u : User)
      (users : List User) (c : Challenge) : UserFor db name h u users → c ∈ db.challenges →
      c.request = ch →
      Outcome app db (.registrationRequest (some name) h ch t) (.crash (.other 0))
        ⟨users, db.credentials, db.challenges⟩
  | registrationIssued (name : String) (h ch : Bytes) (t : Int) (u : User) (users : List User)
      (v : PyVal) : UserFor db name h u users → (∀ c ∈ db.challenges, c.request ≠ ch) →
      CreationReply name u.handle ch v →
      Outcome app db (.registrationRequest (some name) h ch t)
        (.json (.dict [(.str "challengeID", .int (db.challenges.length + 1)),
          (.str "creationOptions", v)]))
        ⟨users, db.credentials, db.challenges ++ [⟨db.challenges.length + 1, ch, t, u.id⟩]⟩
  -- authentication request
  | loginNoName (ch : Bytes) (t : Int) :
      Outcome app db (.authenticationRequest none ch t) (.text "Bad Request" 400) db
  | loginNoUser (name : String) (ch : Bytes) (t : Int) : (∀ u ∈ db.users, u.username ≠ name) →
      Outcome app db (.authenticationRequest (some name) ch t) (.text "User not registered" 400) db
  | loginChallengeTaken (u : User) (ch : Bytes) (t : Int) (c : Challenge) : u ∈ db.users →
      c ∈ db.challenges → c.request = ch →
      Outcome app db (.authenticationRequest (some u.username) ch t) (.crash (.other 0)) db
  | loginIssued (u : User) (ch : Bytes) (t : Int) (rows : List CredentialRow) (v : PyVal) :
      u ∈ db.users → (∀ c ∈ db.challenges, c.request ≠ ch) → rows.Sublist db.credentials →
      (∀ r ∈ db.credentials, r ∈ rows ↔ r.userId = u.id) →
      RequestReply (rows.map CredentialRow.id) ch v →
      Outcome app db (.authenticationRequest (some u.username) ch t)
        (.json (.dict [(.str "challengeID", .int (db.challenges.length + 1)),
          (.str "requestOptions", v)]))
        { db with challenges := db.challenges ++ [⟨db.challenges.length + 1, ch, t, u.id⟩] }
  -- registration response
  | registrationUnread (f : Form) (t : Int) (r : Reply) : Unread app ForRegistration f t db r →
      Outcome app db (.registrationResponse f t) r db
  | registrationRefused (f : Form) (t : Int) (c : Credential) (ch : Challenge) (u : User) (x y : Exc)
      (r : Reply) : Read app ForRegistration f t db c ch u →
      RegistrationRefused app.env (RegistrationCall c ch u) x → Reported x y →
      Told "Could not handle credential attestation" (.error y) r →
      Outcome app db (.registrationResponse f t) r db
  | registrationNoKey (f : Form) (t : Int) (c : Credential) (ch : Challenge) (u : User) (k : CPK)
      (e : Exc) (x : Py Unit) (r : Reply) : Read app ForRegistration f t db c ch u →
      Attests app c ch u k → KeyEncoded app.env k (.error e) → Wrote (.error e) x →
      Told "Could not handle credential attestation" x r →
      Outcome app db (.registrationResponse f t) r db
  | registrationTaken (f : Form) (t : Int) (c : Credential) (ch : Challenge) (u : User) (k : CPK)
      (key : Bytes) (row : CredentialRow) : Read app ForRegistration f t db c ch u →
      Attests app c ch u k → KeyEncoded app.env k (.ok key) → row ∈ db.credentials →
      row.id = c.rawId →
      Outcome app db (.registrationResponse f t)
        (.text "Could not handle credential attestation" 400) db
  | registered (f : Form) (t : Int) (c : Credential) (ch : Challenge) (u : User) (k : CPK)
      (key : Bytes) : Read app ForRegistration f t db c ch u →
      Attests app c ch u k → KeyEncoded app.env k (.ok key) →
      (∀ row ∈ db.credentials, row.id ≠ c.rawId) →
      Outcome app db (.registrationResponse f t) (.text "Success" 200)
        { db with credentials := db.credentials ++ [⟨c.rawId, none, key, u.id⟩] }
  -- authentication response
  | loginUnread (f : Form) (t : Int) (r : Reply) : Unread app ForLogin f t db r →
      Outcome app db (.authenticationResponse f t) r db
  | loginUnknown (f : Form) (t : Int) (c : Credential) (ch : Challenge) (u : User) :
      Read app ForLogin f t db c ch u → (∀ row ∈ db.credentials, row.id ≠ c.rawId) →
      Outcome app db (.authenticationResponse f t)
        (.text "Could not handle credential assertion" 400) db
  | loginNoKey (f : Form) (t : Int) (c : Credential) (ch : Challenge) (u : User)
      (row : CredentialRow) (e x : Exc) (r : Reply) : Read app ForLogin f t db c ch u →
      row ∈ db.credentials → row.id = c.rawId → KeyBytesRefused app.env row.key e →
      NotFound (.error e) x → Told "Could not handle credential assertion" (.error x) r →
      Outcome app db (.authenticationResponse f t) r db
  | loginRefused (f : Form) (t : Int) (c : Credential) (ch : Challenge) (u : User)
      (row : CredentialRow) (cd : CredentialData) (x y : Exc) (r : Reply) :
      Read app ForLogin f t db c ch u → row ∈ db.credentials → row.id = c.rawId →
      StoredAs app db row cd → AuthenticationRefused app.env (LoginCall c ch u) cd x →
      Reported x y → Told "Could not handle credential assertion" (.error y) r →
      Outcome app db (.authenticationResponse f t) r db
  | loggedIn (f : Form) (t : Int) (c : Credential) (ch : Challenge) (u : User)
      (row : CredentialRow) (cd : CredentialData) (user : UserEntity) (rp : RpEntity)
      (ad : AuthData) : Read app ForLogin f t db c ch u → row ∈ db.credentials →
      row.id = c.rawId → StoredAs app db row cd →
      AssertionOk app.env (LoginCall c ch u) cd user rp ad →
      Outcome app db (.authenticationResponse f t) (.text "Success" 200)
        { db with credentials := db.credentials.map fun a =>
            if a.id = c.rawId then { a with count := some ad.signCount } else a }

/-- Users, challenges and credentials are uniquely identified and numbered in order, and
every credential has an owner. -/
structure Consistent (db : Db) : Prop where
  keyed : Keyed db
  owner : ∀ c ∈ db.credentials, ∃ u ∈ db.users, u.id = c.userId

/-- Two replies that differ at most in the order of members of the options. -/
def SameReply (r r' : Reply) : Prop :=
  r = r' ∨
  (∃ n name h ch v v', r = .json (.dict [(.str "challengeID", .int n), (.str "creationOptions", v)]) ∧
    r' = .json (.dict [(.str "challengeID", .int n), (.str "creationOptions", v')]) ∧
    CreationReply name h ch v ∧ CreationReply name h ch v') ∨
  ∃ n ids ch v v', r = .json (.dict [(.str "challengeID", .int n), (.str "requestOptions", v)]) ∧
    r' = .json (.dict [(.str "challengeID", .int n), (.str "requestOptions", v')]) ∧
    RequestReply ids ch v ∧ RequestReply ids ch v'

end WebAuthn.Flask
