import Verif.Model.Flask

/-!
# The page of the example application (examples/flask/templates/app.html)

A step that throws is `none`.  `btoa`, `atob`, `JSON.stringify` and the text of
a number are those of the HTML, Infra and ECMAScript standards.  What
`response.json()` returns is the value that the application gave to `json.dumps`.

Not modelled: `fetch` (a form reaches the application as it was made),
`navigator.credentials` (its results are arguments), texts with unpaired surrogates.
The status texts and the buttons are in `Model/PageFlow.lean`.
-/

namespace WebAuthn.Flask.Page

open WebAuthn WebAuthn.Base64

/-! ## Base64 (app.html 13-23) -/

/-- `base64encode` (app.html 13-19): `btoa` of the bytes. -/
def base64encode (b : Bytes) : String := b64encode b

/-- ASCII white space, which `atob` removes. -/
def isSpace (c : Char) : Bool := c.toNat ∈ [9, 10, 12, 13, 32]

/-- `atob` removes one or two pads at the end of a text whose length is a multiple
of four. -/
def stripPads (s : List Char) : List Char :=
  if s.length % 4 = 0 then
    match s.reverse with
    | '=' :: '=' :: r => r.reverse
    | '=' :: r => r.reverse
    | _ => s
  else s

/-- The bytes of a sequence of 6-bit numbers: three of every four numbers, and two
or one of the three or two that are left. -/
def quads : List Nat → Bytes
  | a :: b :: c :: d :: rest =>
    let n := ((a * 64 + b) * 64 + c) * 64 + d
    UInt8.ofNat (n / 65536) :: UInt8.ofNat (n / 256 % 256) :: UInt8.ofNat (n % 256) :: quads rest
  | [a, b, c] =>
    let n := (a * 64 + b) * 64 + c
    [UInt8.ofNat (n / 1024), UInt8.ofNat (n / 4 % 256)]
  | [a, b] => [UInt8.ofNat ((a * 64 + b) / 16)]
  | _ => []

/-- The numbers of characters of the base64 alphabet. -/
def numbers : List Char → Option (List Nat)
  | [] => some []
  | c :: cs =>
    match decChar c, numbers cs with
    | some n, some ns => some (n :: ns)
    | _, _ => none

/-- `base64decode` (app.html 21-23): the bytes of `atob`. -/
def base64decode (s : String) : Option Bytes :=
  let s := stripPads (s.toList.filter fun c => !isSpace c)
  if s.length % 4 = 1 then none else (numbers s).map quads

/-! ## Options (app.html 33-64)

A decoded member is the byte array.  `Object.assign` copies the members in their
order and an assignment to a member that exists keeps its place.

The members that the application sends are texts, objects and arrays where the page
expects them.  Where one is of another kind the model throws; the page throws too,
except that `atob` first makes a text of any value (`null` is `"null"`) and that
`in` and `length` work on some other values. -/

/-- Assign to the member `name` what `f` makes of it. -/
def setIn (name : String) (f : PyVal → Option PyVal) : Dict → Option Dict
  | [] => none
  | (k, v) :: d =>
    if k.isKey (.str name) then (f v).map fun v => (k, v) :: d
    else (setIn name f d).map fun d => (k, v) :: d

/-- The same if there is such a member. -/
def ifIn (name : String) (f : PyVal → Option PyVal) (d : Dict) : Option Dict :=
  match d.get? (.str name) with
  | none => some d
  | some _ => setIn name f d

/-- A member that has members. -/
def within (f : Dict → Option Dict) : PyVal → Option PyVal
  | .dict d => (f d).map .dict
  | _ => none

/-- A text to be decoded. -/
def decode : PyVal → Option PyVal
  | .str s => (base64decode s).map .bytes
  | _ => none

/-- The elements of an array. -/
def each (f : PyVal → Option PyVal) : List PyVal → Option (List PyVal)
  | [] => some []
  | v :: vs =>
    match f v, each f vs with
    | some w, some ws => some (w :: ws)
    | _, _ => none

def eachOf (f : PyVal → Option PyVal) : PyVal → Option PyVal
  | .list vs => (each f vs).map .list
  | _ => none

/-- `parseCreationOptions` (app.html 33-44). -/
def parseCreationOptions : PyVal → Option PyVal :=
  within (setIn "publicKey" (within fun d =>
    (ifIn "challenge" decode d).bind (ifIn "user" (within (ifIn "id" decode)))))

/-- `parseRequestOptions` (app.html 46-64). -/
def parseRequestOptions : PyVal → Option PyVal :=
  within (setIn "publicKey" (within fun d =>
    (ifIn "challenge" decode d).bind (ifIn "allowCredentials" (eachOf (within (setIn "id" decode))))))

/-! ## Credentials (app.html 66-96) -/

/-- The object that `attestationJSON` and `assertionJSON` build. -/
structure CredJSON where
  type : String
  id : String
  rawId : String
  response : List (String × String)

/-- `attestationJSON` (app.html 66-76).  The response of an assertion has no
`attestationObject`, and `undefined` no `buffer`. -/
def attestationJSON (c : Credential) : Option CredJSON :=
  match c.response with
  | .attestation cdj ob => some {
      type := c.type
      id := c.id
      rawId := base64encode c.rawId
      response := [("attestationObject", base64encode ob), ("clientDataJSON", base64encode cdj)] }
  | .assertion .. => none

/-- `assertionJSON` (app.html 78-96). -/
def assertionJSON (c : Credential) : Option CredJSON :=
  match c.response with
  | .attestation .. => none
  | .assertion cdj raw sig handle => some {
      type := c.type
      id := c.id
      rawId := base64encode c.rawId
      response := [("authenticatorData", base64encode raw), ("clientDataJSON", base64encode cdj),
        ("signature", base64encode sig)] ++
        (match handle with
          | none => []
          | some h => if h.length > 0 then [("userHandle", base64encode h)] else []) }

/-! ## `JSON.stringify` -/

/-- A lower-case hexadecimal digit. -/
def hex (n : Nat) : Char := if n < 10 then Char.ofNat (48 + n) else Char.ofNat (87 + n)

/-- One character of a string (ECMAScript, `QuoteJSONString`). -/
def quoteChar (c : Char) : List Char :=
  if c = '\x08' then ['\\', 'b']
  else if c = '\t' then ['\\', 't']
  else if c = '\n' then ['\\', 'n']
  else if c = '\x0c' then ['\\', 'f']
  else if c = '\r' then ['\\', 'r']
  else if c = '"' then ['\\', '"']
  else if c = '\\' then ['\\', '\\']
  else if c.toNat < 32 then ['\\', 'u', '0', '0', hex (c.toNat / 16), hex (c.toNat % 16)]
  else [c]

def quote (s : String) : List Char := '"' :: s.toList.flatMap quoteChar ++ ['"']

/-- The members of an object, by name and text, and its closing brace. -/
def members : List (String × List Char) → List Char
  | [] => ['}']
  | [(k, t)] => quote k ++ ':' :: t ++ ['}']
  | (k, t) :: m :: ms => quote k ++ ':' :: t ++ ',' :: members (m :: ms)

def object (ms : List (String × List Char)) : List Char := '{' :: members ms

/-- `JSON.stringify` of the object of a credential. -/
def stringify (j : CredJSON) : String :=
  String.ofList (object [("type", quote j.type), ("id", quote j.id), ("rawId", quote j.rawId),
    ("response", object (j.response.map fun m => (m.1, quote m.2)))])

/-! ## Exchanges (app.html 103-180) -/

/-- `await response.json()`. -/
def body : Reply → Option Dict
  | .json (.dict d) => some d
  | _ => none

/-- The text of the number of a challenge; a larger integer is not read exactly. -/
def idText : PyVal → Option String
  | .int (.ofNat n) => if n ≤ 2 ^ 53 then some (toString n) else none
  | _ => none

/-- The argument of `navigator.credentials.create` (app.html 120-136). -/
def creationCall (r : Reply) : Option PyVal :=
  (body r).bind fun d => (d.get? (.str "creationOptions")).bind parseCreationOptions

/-- The argument of `navigator.credentials.get` (app.html 155-170). -/
def requestCall (r : Reply) : Option PyVal :=
  (body r).bind fun d => (d.get? (.str "requestOptions")).bind parseRequestOptions

/-- The form of a response to the reply `r`. -/
def formFor (r : Reply) (j : Option CredJSON) (username : String) : Option Form := do
  let d ← body r
  let n ← d.get? (.str "challengeID")
  let id ← idText n
  let j ← j
  return ⟨some id, some (stringify j), some username⟩

/-- `registerAttestation` (app.html 103-118). -/
def registrationForm (r : Reply) (attestation : Credential) (username : String) : Option Form :=
  formFor r (attestationJSON attestation) username

/-- `assertAuthentication` (app.html 138-153). -/
def authenticationForm (r : Reply) (assertion : Credential) (username : String) : Option Form :=
  formFor r (assertionJSON assertion) username

end WebAuthn.Flask.Page
