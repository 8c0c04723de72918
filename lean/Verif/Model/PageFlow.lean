import Verif.Model.Page

/-!
# The buttons of the page (examples/flask/templates/app.html 4-11, 98-198)

A click on a button starts a flow of asynchronous functions.  A flow runs until it
awaits something, then other flows may run.  All flows share the variables of the
page.

`cco` and `cro` are left out: each is read in the step that assigns it.  An `await`
of a function of the page is not modelled as a pause (no click can be handled then).
The text of a reply with the status 200 that is not the JSON of the application is
taken not to be JSON; `fetch` follows no redirects.

With `own` the flows are repaired: they use variables of their own.
-/

namespace WebAuthn.Flask.Page

open WebAuthn

/-- The two buttons (app.html 188-189). -/
inductive Button where
  | register
  | authenticate

/-- The variables that the flows of one button share (app.html 4-11): `registrationRequest`,
`registeredUsername` and `attestation`, or `authenticationRequest`,
`authenticatingUsername` and `assertion`. -/
structure Slots where
  request : PyVal := .none
  username : Option String := none
  credential : Option Credential := none

/-- The variables of the page, and the text of `status`. -/
structure Globals where
  registration : Slots := {}
  authentication : Slots := {}
  status : String := ""

def Globals.slots (g : Globals) : Button → Slots
  | .register => g.registration
  | .authenticate => g.authentication

def Globals.set (g : Globals) : Button → Slots → Globals
  | .register, s => { g with registration := s }
  | .authenticate, s => { g with authentication := s }

/-- `setStatus` (app.html 98-101). -/
def Globals.say (g : Globals) (s : String) : Globals := { g with status := s }

/-- The text of a variable that may be `null`. -/
def shown (name : Option String) : String := name.getD "null"

/-! ## The status texts -/

/-- app.html 124, 159. -/
def askingText : Button → String → String
  | .register, n => "Registering username " ++ n ++ "."
  | .authenticate, n => "Requesting authentication for username " ++ n ++ "."

/-- app.html 127, 162. -/
def askedInVain : Button → String
  | .register => "Failed to register username...could already be registered."
  | .authenticate => "Failed to request authentication..."

/-- app.html 104, 139. -/
def submittingText : Button → String → String
  | .register, n => "Attesting credential for " ++ n ++ "."
  | .authenticate, n => "Asserting credential for " ++ n

/-- app.html 112-113, 147-148. -/
def successText : Button → String → String
  | .register, n => "Successfully registered credential for " ++ n ++ "!"
  | .authenticate, n => "Successfully authorized username " ++ n ++ "!"

/-- app.html 115-116, 150-151. -/
def failureText : Button → String → String
  | .register, n => "Failed to register credential for " ++ n ++ "..."
  | .authenticate, n => "Failed to authorize username " ++ n ++ "..."

/-! ## Flows -/

/-- What a flow awaits, with the local variables that are still in scope. -/
inductive Point where
  /-- The reply to a request (app.html 125, 160). -/
  | request (name : String)
  /-- `response.json()` (app.html 131, 166). -/
  | body (name : String) (r : Reply)
  /-- `navigator.credentials` (app.html 135, 169). -/
  | credential (name : String) (r : Reply)
  /-- The reply to a response (app.html 110, 145). -/
  | response (f : Form)
  /-- The flow has returned or thrown. -/
  | over

/-- What an awaited promise becomes. -/
inductive Signal where
  | reply (r : Reply)
  | body
  | credential (c : Option Credential)
  | rejected

/-- What a flow calls before it pauses. -/
inductive Call where
  /-- `post('/registration/request/', …)` or `post('/authentication/request/', …)`. -/
  | ask (name : String)
  /-- `navigator.credentials.create` or `.get`. -/
  | authenticator (opts : PyVal)
  /-- `post('/registration/response/', …)` or `post('/authentication/response/', …)`. -/
  | submit (f : Form)

/-- `response.ok`. -/
def ok : Reply → Bool
  | .json _ => true
  | .text _ status => 200 ≤ status && status < 300
  | .crash _ => false

def optionsFor : Button → Reply → Option PyVal
  | .register => creationCall
  | .authenticate => requestCall

def credentialForm : Button → Reply → Credential → String → Option Form
  | .register => registrationForm
  | .authenticate => authenticationForm

/-- `registerUsername` and `requestAuthentication` until their first `await`
(app.html 120-125, 155-160). -/
def start (b : Button) (name : String) (g : Globals) : Globals := g.say (askingText b name)

/-- `registerUsername` and `requestAuthentication` after `response.json()` (app.html
131-135, 166-169). -/
def afterBody (b : Button) (name : String) (g : Globals) (r : Reply) :
    Globals × Point × Option Call :=
  match r with
  | .json v =>
    let g := g.set b { g.slots b with request := v }
    match optionsFor b r with
    | none => (g, .over, none)
    | some opts =>
      let g := g.set b { g.slots b with username := some name }
      let g := match b with
        | .register => g.say ("Creating credential for " ++ name ++ ".")
        | .authenticate => g
      (g, .credential name r, some (.authenticator opts))
  | _ => (g, .over, none)

/-- `registerAttestation` and `assertAuthentication` until their `await` (app.html
103-110, 138-145), after the variable of the credential was assigned (app.html 135,
169). -/
def afterCredential (own : Bool) (b : Button) (name : String) (r : Reply) (g : Globals)
    (c : Option Credential) : Globals × Point × Option Call :=
  let g := g.set b { g.slots b with credential := c }
  let r := if own then r else .json (g.slots b).request
  let name := if own then name else shown (g.slots b).username
  let g := g.say (submittingText b name)
  match c.bind fun c => credentialForm b r c name with
  | none => (g, .over, none)
  | some f => (g, .response f, some (.submit f))

/-- The rest of `registerAttestation` and `assertAuthentication` (app.html 111-117,
146-152). -/
def afterResponse (own : Bool) (b : Button) (f : Form) (g : Globals) (r : Reply) : Globals :=
  let name := shown (if own then f.username else (g.slots b).username)
  if ok r then g.say (successText b name) else g.say (failureText b name)

/-- A flow goes on.  A signal that it does not await changes nothing. -/
def resume (own : Bool) (b : Button) : Point → Signal → Globals → Globals × Point × Option Call
  | .over, _, g => (g, .over, none)
  | _, .rejected, g => (g, .over, none)
  | .request name, .reply r, g =>
    if ok r then (g, .body name r, none) else (g.say (askedInVain b), .over, none)
  | .body name r, .body, g => afterBody b name g r
  | .credential name r, .credential c, g => afterCredential own b name r g c
  | .response f, .reply r, g => (afterResponse own b f g r, .over, none)
  | p, _, g => (g, p, none)

/-! ## The page, the application and the rest of the world -/

/-- A request of a flow that is under way. -/
inductive Wire where
  | idle
  | sent (c : Call)
  | answered (r : Reply)

structure Flow where
  button : Button
  point : Point
  wire : Wire

/-- What passes between the user, the page, the browser and the application in the
flow `i`. -/
inductive Note where
  | clicked (i : Nat) (b : Button) (name : String)
  | replied (i : Nat) (r : Reply)
  | called (i : Nat) (opts : PyVal)
  | made (i : Nat) (c : Credential)
  | submitted (i : Nat) (f : Form)

/-- The page, the requests that the application has handled, and what has passed. -/
structure World where
  page : Globals := {}
  flows : List Flow := []
  events : List Event := []
  notes : List Note := []

/-- What can happen next. -/
inductive Act where
  /-- The user clicks a button with `name` as the user name. -/
  | click (b : Button) (name : String)
  /-- The application handles the request of a flow. -/
  | serve (i : Nat) (handle challenge : Bytes) (now : Int)
  /-- It handles a request of someone else. -/
  | other (e : Event)
  /-- The reply reaches the flow. -/
  | arrive (i : Nat)
  /-- The body of the reply was read. -/
  | read (i : Nat)
  /-- The browser returns a credential. -/
  | credential (i : Nat) (c : Option Credential)
  /-- The promise that the flow awaits is rejected. -/
  | reject (i : Nat)

/-- The request as the application gets it. -/
def eventOf (b : Button) (c : Call) (handle challenge : Bytes) (now : Int) : Option Event :=
  match b, c with
  | .register, .ask name => some (.registrationRequest (some name) handle challenge now)
  | .authenticate, .ask name => some (.authenticationRequest (some name) challenge now)
  | .register, .submit f => some (.registrationResponse f now)
  | .authenticate, .submit f => some (.authenticationResponse f now)
  | _, .authenticator _ => none

/-- What the call of a flow adds to what has passed. -/
def noteCall (i : Nat) : Option Call → List Note
  | some (.authenticator opts) => [.called i opts]
  | some (.submit f) => [.submitted i f]
  | _ => []

/-- What a signal adds. -/
def noteSignal (i : Nat) : Point → Signal → List Note
  | .request _, .reply r => [.replied i r]
  | _, .credential (some c) => [.made i c]
  | _, _ => []

/-- The flow `i` gets a signal. -/
def World.signal (own : Bool) (w : World) (i : Nat) (fl : Flow) (s : Signal) : World :=
  let x := resume own fl.button fl.point s w.page
  { w with
    page := x.1
    flows := w.flows.set i ⟨fl.button, x.2.1, match x.2.2 with | none => .idle | some c => .sent c⟩
    notes := w.notes ++ noteSignal i fl.point s ++ noteCall i x.2.2 }

def World.act (own : Bool) (app : App) (w : World) : Act → World
  | .click b name =>
    { w with
      page := start b name w.page
      flows := w.flows ++ [⟨b, .request name, .sent (.ask name)⟩]
      notes := w.notes ++ [.clicked w.flows.length b name] }
  | .serve i h ch t =>
    match w.flows[i]? with
    | some ⟨b, p, .sent c⟩ =>
      match eventOf b c h ch t with
      | none => w
      | some e => { w with
          flows := w.flows.set i ⟨b, p, .answered (reply app w.events e)⟩
          events := w.events ++ [e] }
    | _ => w
  | .other e => { w with events := w.events ++ [e] }
  | .arrive i =>
    match w.flows[i]? with
    | some ⟨b, p, .answered r⟩ => w.signal own i ⟨b, p, .answered r⟩ (.reply r)
    | _ => w
  | .read i =>
    match w.flows[i]? with
    | some ⟨b, .body n r, wi⟩ => w.signal own i ⟨b, .body n r, wi⟩ .body
    | _ => w
  | .credential i c =>
    match w.flows[i]? with
    | some ⟨b, .credential n r, wi⟩ => w.signal own i ⟨b, .credential n r, wi⟩ (.credential c)
    | _ => w
  | .reject i =>
    match w.flows[i]? with
    | some fl => w.signal own i fl .rejected
    | none => w

/-- The world after `acts`, from a fresh page and empty tables. -/
def world (own : Bool) (app : App) (acts : List Act) : World :=
  acts.foldl (World.act own app) {}

end WebAuthn.Flask.Page
