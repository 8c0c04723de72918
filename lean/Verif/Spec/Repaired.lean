import Verif.Spec.Attestation

/-!
# Specification of registration with every supported statement format, and of hosts
-/

namespace WebAuthn.Spec

/-- The statement is valid in one of the formats that the package implements, and
shows this attestation type and this trust path. -/
inductive StatementShows (env : Env) (ad : AuthData) (raw hash : Bytes) :
    AttStmt → AttestationType → TrustedPath → Prop
  | none : StatementShows env ad raw hash .none .NONE none
  | fidoU2F (sig : Bytes) (x5c : List Bytes) (cert : Cert) : U2FOk env sig x5c ad hash cert →
      StatementShows env ad raw hash (.fidoU2F sig x5c) .BASIC (some [cert])
  | androidKey (alg : NV Alg) (sig : Bytes) (x5c : List Bytes) (cert : Cert) :
      AndroidOk env alg.id sig x5c ad raw hash cert →
      StatementShows env ad raw hash (.androidKey alg sig x5c) .BASIC (some [cert])

/-- The raw id of the credential is the attested credential id. -/
def RawIdAttests (c : Credential) (ad : AuthData) : Prop :=
  ∃ acd, ad.attested = some acd ∧ c.rawId = acd.credentialId

/-! ## The host of an origin -/

/-- The text of the host in an authority without user information: what precedes the
first `:`, or what the first `[` and the first `]` after it enclose. -/
inductive HostText : List Char → List Char → Prop
  | alone (host : List Char) : ':' ∉ host → '[' ∉ host → HostText host host
  | withPort (host port : List Char) : ':' ∉ host → '[' ∉ host → '[' ∉ port →
      HostText (host ++ ':' :: port) host
  | unclosed (pre body : List Char) : '[' ∉ pre → ']' ∉ body → HostText (pre ++ '[' :: body) body
  | bracketed (pre body post : List Char) : '[' ∉ pre → ']' ∉ body →
      HostText (pre ++ '[' :: body ++ ']' :: post) body

/-- Lower case, except for what follows the first `%` (the zone of an address). -/
def HostLower (s host : List Char) : Prop :=
  ('%' ∉ s ∧ LowerCase s host) ∨
  ∃ h l zone, s = h ++ '%' :: zone ∧ '%' ∉ h ∧ LowerCase h l ∧ host = l ++ '%' :: zone

/-- The authority `netloc` denotes the host `host`. -/
def HostOf (netloc host : List Char) : Prop :=
  ∃ hostinfo text, (netloc = hostinfo ∨ ∃ userinfo, netloc = userinfo ++ '@' :: hostinfo) ∧
    '@' ∉ hostinfo ∧ HostText hostinfo text ∧ HostLower text host

end WebAuthn.Spec
