import Verif.Spec.Outcome
import Verif.Spec.Base64

/-!
# What is not a credential or a stored key

The exception for every dictionary of a client and for all bytes of a stored key that are
refused.
-/

namespace WebAuthn.Spec

/-- The bytes are no COSE key. -/
inductive KeyBytesRefused (env : Env) (b : Bytes) : Exc → Prop
  | notCbor (e x : Exc) : env.cborLoad b = .error e → Translated [.CBORDecodeError] .decoding e x →
      KeyBytesRefused env b x
  | notKey (v : PyVal) (rest : Bytes) : env.cborLoad b = .ok (v, rest) →
      (∀ d k, v = .dict d → ¬ CoseKeyOf d k) → KeyBytesRefused env b (.lib .parser)

/-- The member is no base64 text. -/
inductive MemberRefused (d : Dict) (k : String) : LibErr → Prop
  | notText : (∀ t, ¬ Lookup d (.str k) (.str t)) → MemberRefused d k .parser
  | notBase64 (t : String) : Lookup d (.str k) (.str t) → (∀ b, ¬ Base64Text t b) →
      MemberRefused d k .decoding

/-- The `response` dictionary is refused. -/
inductive ResponseRefused (d : Dict) : LibErr → Prop
  | clientData (x : LibErr) : MemberRefused d "clientDataJSON" x → ResponseRefused d x
  | attestationKeys (cdj : Bytes) : Base64Member d "clientDataJSON" cdj →
      ¬ Absent d (.str "attestationObject") →
      ¬ OnlyKeys d ["clientDataJSON", "attestationObject"] → ResponseRefused d .parser
  | attestationObject (cdj : Bytes) (x : LibErr) : Base64Member d "clientDataJSON" cdj →
      ¬ Absent d (.str "attestationObject") →
      OnlyKeys d ["clientDataJSON", "attestationObject"] → MemberRefused d "attestationObject" x →
      ResponseRefused d x
  | assertionKeys (cdj : Bytes) : Base64Member d "clientDataJSON" cdj →
      Absent d (.str "attestationObject") →
      ¬ OnlyKeys d ["clientDataJSON", "authenticatorData", "signature", "userHandle"] →
      ResponseRefused d .parser
  | authenticatorData (cdj : Bytes) (x : LibErr) : Base64Member d "clientDataJSON" cdj →
      OnlyKeys d ["clientDataJSON", "authenticatorData", "signature", "userHandle"] →
      MemberRefused d "authenticatorData" x → ResponseRefused d x
  | signature (cdj raw : Bytes) (x : LibErr) : Base64Member d "clientDataJSON" cdj →
      OnlyKeys d ["clientDataJSON", "authenticatorData", "signature", "userHandle"] →
      Base64Member d "authenticatorData" raw → MemberRefused d "signature" x → ResponseRefused d x
  | userHandle (cdj raw sig : Bytes) (x : LibErr) : Base64Member d "clientDataJSON" cdj →
      OnlyKeys d ["clientDataJSON", "authenticatorData", "signature", "userHandle"] →
      Base64Member d "authenticatorData" raw → Base64Member d "signature" sig →
      ¬ Missing d (.str "userHandle") → MemberRefused d "userHandle" x → ResponseRefused d x

/-- The dictionary of a client is refused. -/
inductive CredentialRefused (d : Dict) : LibErr → Prop
  | keys : ¬ OnlyKeys d ["id", "rawId", "response", "type"] → CredentialRefused d .parser
  | id : OnlyKeys d ["id", "rawId", "response", "type"] → (∀ t, ¬ Lookup d (.str "id") (.str t)) →
      CredentialRefused d .parser
  | type (id : String) : OnlyKeys d ["id", "rawId", "response", "type"] →
      Lookup d (.str "id") (.str id) → (∀ t, ¬ Lookup d (.str "type") (.str t)) →
      CredentialRefused d .parser
  | rawId (id type : String) (x : LibErr) : OnlyKeys d ["id", "rawId", "response", "type"] →
      Lookup d (.str "id") (.str id) → Lookup d (.str "type") (.str type) →
      MemberRefused d "rawId" x → CredentialRefused d x
  | noResponse (id type : String) (rawId : Bytes) : OnlyKeys d ["id", "rawId", "response", "type"] →
      Lookup d (.str "id") (.str id) → Lookup d (.str "type") (.str type) →
      Base64Member d "rawId" rawId → (∀ rd, ¬ Lookup d (.str "response") (.dict rd)) →
      CredentialRefused d .parser
  | response (id type : String) (rawId : Bytes) (rd : Dict) (x : LibErr) :
      OnlyKeys d ["id", "rawId", "response", "type"] →
      Lookup d (.str "id") (.str id) → Lookup d (.str "type") (.str type) →
      Base64Member d "rawId" rawId → Lookup d (.str "response") (.dict rd) →
      ResponseRefused rd x → CredentialRefused d x

/-! ## Stored keys -/

/-- The members common to all keys, in the order in which they are written.  The fifth is
written with the fourth, and only then. -/
def HeadWritten (b : KeyBase) (d : Dict) : Prop :=
  ∃ kty kid alg a ops, Denotes ktyCode kty b.kty ∧ b.alg = some a ∧ Denotes algCode alg a ∧
    (match b.kid with
      | none => kid = []
      | some x => kid = [(.int 2, .bytes x)]) ∧
    (match b.keyOps with
      | none => ops = []
      | some l => ∃ vs, List.Forall₂ (Denotes opCode) vs l ∧
          ops = [(.int 4, .list vs), (.int 5, b.baseIV.elim .none .bytes)]) ∧
    d = (.int 1, kty) :: kid ++ (.int 3, alg) :: ops

/-- The map that is written for a key. -/
def KeyWritten (d : Dict) : CPK → Prop
  | .ec2 b x y crv => ∃ head c, HeadWritten b head ∧ Denotes crvCode c crv ∧
      d = head ++ [(.int (-1), c), (.int (-2), .bytes x), (.int (-3), .bytes y)]
  | .okp b crv x => ∃ head c, HeadWritten b head ∧ Denotes crvCode c crv ∧
      d = head ++ [(.int (-1), c), (.int (-2), .bytes x)]
  | .base _ => False

/-- The result of encoding a key. -/
inductive KeyEncoded (env : Env) (k : CPK) : Py Bytes → Prop
  | encoded (d : Dict) : KeyWritten d k → KeyEncoded env k (env.cborDumps (.dict d))
  | noAlg (b : KeyBase) : (∃ x y crv, k = .ec2 b x y crv) ∨ (∃ crv x, k = .okp b crv x) →
      b.alg = none → KeyEncoded env k (.error .assertionError)
  | noKind (b : KeyBase) : k = .base b → KeyEncoded env k (.error (.lib .unimplemented))

end WebAuthn.Spec
