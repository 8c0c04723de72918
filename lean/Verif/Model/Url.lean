import Verif.Model.Utils

/-!
# `urllib.parse.urlparse` and `parse_origin`

`urlparse` as in CPython 3.11.10 `Lib/urllib/parse.py`, on character lists.
The split of the path into path and `;params` is left out: `parse_origin` only
asks whether one of the two is non-empty, and when the authority is non-empty
the path keeps its leading `/`; when the authority is empty `parse_origin`
raises `OriginError` in both cases.
-/

namespace WebAuthn

/-- `s.partition(c)`: the text before the first `c`, and the text after it if
there is a `c`. -/
def partitionAt (c : Char) : List Char → List Char × Option (List Char)
  | [] => ([], none)
  | x :: xs => if x = c then ([], some xs) else
    let r := partitionAt c xs
    (x :: r.1, r.2)

/-- `s.rpartition('@')[2]`: the text after the last `@` (all of it if none). -/
def afterLastAt (s : List Char) : List Char :=
  (s.reverse.takeWhile (· ≠ '@')).reverse

/-- `scheme_chars` of `urllib.parse`: ASCII letters, digits, `+`, `-`, `.`. -/
def isSchemeChar (c : Char) : Bool :=
  isUpper c || isLower c || ('0' ≤ c && c ≤ '9') || c == '+' || c == '-' || c == '.'

/-- `_WHATWG_C0_CONTROL_OR_SPACE`. -/
def isC0OrSpace (c : Char) : Bool := c.toNat ≤ 32

/-- `_UNSAFE_URL_BYTES_TO_REMOVE`. -/
def isTabOrNewline (c : Char) : Bool := c == '\t' || c == '\r' || c == '\n'

/-- The delimiters of `_splitnetloc`. -/
def isNetlocEnd (c : Char) : Bool := c == '/' || c == '?' || c == '#'

/-- Result of `urlsplit`. -/
structure Url where
  scheme : List Char
  netloc : List Char
  path : List Char
  query : List Char
  fragment : List Char
  deriving DecidableEq, Repr

/-- The scheme part of `urlsplit`: the lower-cased scheme and the rest. -/
def splitScheme (url : List Char) : List Char × List Char :=
  match partitionAt ':' url with
  | (pre, some rest) =>
    match pre with
    | [] => ([], url)
    | c :: _ =>
      if (isUpper c || isLower c) && pre.all isSchemeChar
      then (pre.map toLower, rest)
      else ([], url)
  | (_, none) => ([], url)

/-- The authority part of `urlsplit` with its bracket checks: netloc and rest. -/
def splitNetloc (env : Env) (url : List Char) : Py (List Char × List Char) :=
  match url with
  | '/' :: '/' :: rest =>
    let netloc := rest.takeWhile (fun c => !isNetlocEnd c)
    let tail := rest.dropWhile (fun c => !isNetlocEnd c)
    let op := netloc.contains '['
    let cl := netloc.contains ']'
    if op != cl then .error .valueError
    else if op && cl then
      let host := (partitionAt ']' ((partitionAt '[' netloc).2.getD [])).1
      if env.bracketOk host then .ok (netloc, tail) else .error .valueError
    else .ok (netloc, tail)
  | _ => .ok ([], url)

/-- `urllib.parse.urlsplit`. -/
def urlsplit (env : Env) (s : List Char) : Py Url := do
  let url := (s.dropWhile isC0OrSpace).filter (fun c => !isTabOrNewline c)
  let (scheme, url) := splitScheme url
  let (netloc, url) ← splitNetloc env url
  let (url, frag) := partitionAt '#' url
  let (path, query) := partitionAt '?' url
  if !netloc.all (fun c => c.toNat < 128) && env.nfkcBad netloc then
    .error .valueError
  else
    .ok { scheme, netloc, path, query := query.getD [], fragment := frag.getD [] }

/-- `int(port)` of a string of ASCII digits. -/
def decimalValue (s : List Char) : Nat :=
  s.foldl (fun acc c => acc * 10 + (c.toNat - '0'.toNat)) 0

/-- `ParseResult.port` (with `_hostinfo`): `None` when the port text is absent or
empty; `ValueError` when it is not a number in 0..65535. -/
def urlPort (netloc : List Char) : Py (Option Nat) :=
  let hostinfo := afterLastAt netloc
  let port : List Char :=
    match partitionAt '[' hostinfo with
    | (_, some bracketed) =>
      (partitionAt ':' ((partitionAt ']' bracketed).2.getD [])).2.getD []
    | (_, none) => (partitionAt ':' hostinfo).2.getD []
  if port = [] then .ok none
  else if port.all (fun c => '0' ≤ c && c ≤ '9') then
    if decimalValue port ≤ 65535 then .ok (some (decimalValue port))
    else .error .valueError
  else .error .valueError

/-- `'://' in origin`. -/
def hasSchemeSep : List Char → Bool
  | [] => false
  | c :: cs => ("://".toList.isPrefixOf (c :: cs)) || hasSchemeSep cs

/-- `_SCHEME_DEFAULT_PORT_MAPPING` (parsers.py 48-51). -/
def defaultPort (scheme : List Char) : Nat :=
  if scheme = "https".toList then 443 else 80

/-- `parse_origin` (parsers.py 54-92). -/
def parseOrigin (env : Env) (origin : String) : Py Origin :=
  if !hasSchemeSep origin.toList then raise .origin
  else do
    let url ← urlsplit env origin.toList
    if url.path ≠ [] || url.query ≠ [] || url.fragment ≠ [] then raise .origin
    else if url.netloc = [] then raise .origin
    else if url.scheme ≠ "http".toList && url.scheme ≠ "https".toList then raise .origin
    else
      let port ← urlPort url.netloc
      .ok {
        scheme := String.ofList url.scheme
        hostname := String.ofList url.netloc
        port := port.getD (defaultPort url.scheme) }

end WebAuthn
