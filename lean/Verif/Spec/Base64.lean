import Verif.Spec.Data

/-!
# Specification of base64 decoding

Python's decoder is lenient: characters outside the alphabet are skipped and
decoding stops at the first complete padding.  The specification says which
characters are used and what number they denote.
-/

namespace WebAuthn.Spec

/-- The standard alphabet (RFC 4648 section 4). -/
def stdAlphabet : List Char :=
  "ABCDEFGHIJKLMNOPQRSTUVWXYZabcdefghijklmnopqrstuvwxyz0123456789+/".toList

/-- The URL-safe alphabet (RFC 4648 section 5). -/
def urlAlphabet : List Char :=
  "ABCDEFGHIJKLMNOPQRSTUVWXYZabcdefghijklmnopqrstuvwxyz0123456789-_".toList

/-- The 6-bit value of a character of the standard alphabet. -/
def sextetStd (c : Char) : Option Nat := stdAlphabet.idxOf? c

/-- The 6-bit value of a character of the URL-safe alphabet; Python also takes
the two standard characters. -/
def sextetUrl (c : Char) : Option Nat := (urlAlphabet.idxOf? c).or (stdAlphabet.idxOf? c)

/-- A pad character that follows `u` ends the input: it completes a quad, alone
after three data characters, or as second pad after two. -/
def Stops (sx : Char → Option Nat) (u : List Char) : Prop :=
  (u.filterMap sx).length % 4 = 3 ∨
  (u.filterMap sx).length % 4 = 2 ∧
    ∃ a noise, u = a ++ '=' :: noise ∧ ∀ c ∈ noise, sx c = none ∧ c ≠ '='

/-- The number that a sequence of 6-bit values denotes. -/
def value64 (v : List Nat) : Nat := v.foldl (fun a x => 64 * a + x) 0

/-- `b` is the string of whole bytes at the front of the 6-bit values `v`. -/
def BytesOfSextets (v : List Nat) (b : Bytes) : Prop :=
  b.length = 6 * v.length / 8 ∧ BigEndian b (value64 v / 2 ^ (6 * v.length % 8))

/-- The text `s` decodes to `b`; `endOk` says how many data characters (mod 4)
may have been read when the text ends without a terminating pad. -/
def DecodesTo (sx : Char → Option Nat) (endOk : Nat → Prop) (s : List Char) (b : Bytes) : Prop :=
  (∀ c ∈ s, c.toNat < 128) ∧
  ∃ used rest, s = used ++ rest ∧ (∀ x y, used = x ++ '=' :: y → ¬ Stops sx x) ∧
    (rest = [] ∧ endOk ((used.filterMap sx).length % 4) ∨ (∃ r, rest = '=' :: r) ∧ Stops sx used) ∧
    BytesOfSextets (used.filterMap sx) b

/-- Standard base64: padding is required. -/
def Base64Text (s : String) (b : Bytes) : Prop := DecodesTo sextetStd (· = 0) s.toList b

/-- base64url: padding may be missing. -/
def Base64UrlText (s : String) (b : Bytes) : Prop := DecodesTo sextetUrl (· ≠ 1) s.toList b

/-- `s` is the encoding of `b` in RFC 4648, section 3.5 (canonical): characters
of the alphabet, unused bits zero, then pads up to a multiple of four. -/
def Encodes64 (alphabet : List Char) (s : List Char) (b : Bytes) : Prop :=
  ∃ data pad v, s = data ++ List.replicate pad '=' ∧ data.map alphabet.idxOf? = v.map some ∧
    pad ≤ 2 ∧ s.length % 4 = 0 ∧ BytesOfSextets v b ∧ 2 ^ (6 * v.length % 8) ∣ value64 v

end WebAuthn.Spec

namespace WebAuthn.Spec

/-! ## Client credentials (JSON) -/

/-- A member that is a base64 text denoting `b`. -/
def Base64Member (d : Dict) (k : String) (b : Bytes) : Prop :=
  ∃ t, Lookup d (.str k) (.str t) ∧ Base64Text t b

/-- The `response` dictionary denotes `r`. -/
def ResponseOf (d : Dict) : Response → Prop
  | .attestation cdj ob =>
    OnlyKeys d ["clientDataJSON", "attestationObject"] ∧
    Base64Member d "clientDataJSON" cdj ∧ Base64Member d "attestationObject" ob
  | .assertion cdj raw sig handle =>
    OnlyKeys d ["clientDataJSON", "authenticatorData", "signature", "userHandle"] ∧
    Base64Member d "clientDataJSON" cdj ∧ Base64Member d "authenticatorData" raw ∧
    Base64Member d "signature" sig ∧
    match handle with
    | none => Missing d (.str "userHandle")
    | some h => Base64Member d "userHandle" h

/-- The dictionary of a client denotes the credential `c`. -/
def CredentialOf (d : Dict) (c : Credential) : Prop :=
  OnlyKeys d ["id", "rawId", "response", "type"] ∧
  Lookup d (.str "id") (.str c.id) ∧ Lookup d (.str "type") (.str c.type) ∧
  Base64Member d "rawId" c.rawId ∧
  ∃ rd, Lookup d (.str "response") (.dict rd) ∧ ResponseOf rd c.response

end WebAuthn.Spec
