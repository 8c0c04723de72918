import Verif.Spec.Ceremony

/-!
# Token bindings, as the standard means them (C102)

WebAuthn Level 1, 5.10.1 and steps 6 of 7.1 and 10 of 7.2: a client that knows token bindings says
`supported` when none was negotiated on the connection and `present`, with the identifier, when one
was; a client that does not know them leaves the member out. The Relying Party "verifies that the
value of `tokenBinding.status` matches the state of Token Binding for the TLS connection", and the
identifier if it was used.
-/

namespace WebAuthn.Spec

/-- What clients may report on a connection; `used` is the identifier of the token binding of the
connection, base64url encoded, if there is one. -/
inductive Reports : (used : Option String) → Option ClientTokenBinding → Prop
  /-- The client does not know token bindings. -/
  | unknown : Reports none none
  /-- The client knows them, none was negotiated. -/
  | supported : Reports none (some ⟨.SUPPORTED, .none⟩)
  /-- The same, with an identifier that means nothing. -/
  | supportedWith (id : String) : Reports none (some ⟨.SUPPORTED, .str id⟩)
  /-- The token binding of the connection. -/
  | present (id : String) : Reports (some id) (some ⟨.PRESENT, .str id⟩)

/-- The client data says what clients may report on the connection. -/
def RightlyBound (env : Env) (used : Option String) (cdj : Bytes) : Prop :=
  ∃ cd, ClientDataOf env cdj cd ∧ Reports used cd.tokenBinding

/-- The client data of a response. -/
inductive HasClientData : Response → Bytes → Prop
  | attestation (cdj obj : Bytes) : HasClientData (.attestation cdj obj) cdj
  | assertion (cdj raw sig : Bytes) (h : Option Bytes) : HasClientData (.assertion cdj raw sig h) cdj

/-- Choosing the `token_binding` argument by `choose` accepts, of the responses that some argument
would accept, those whose client reported the state of the connection, and no others. -/
def ChoosesRight (env : Env) (choose : Option String → Response → Option TokenBinding)
    (attest : AttestationArgs → Prop) (assert : AssertionArgs → Prop) : Prop :=
  (∀ (used : Option String) (a : AttestationArgs),
    attest { a with tokenBinding := choose used a.credential.response } ↔
    (∃ tb, attest { a with tokenBinding := tb }) ∧
      ∃ cdj, HasClientData a.credential.response cdj ∧ RightlyBound env used cdj) ∧
  (∀ (used : Option String) (a : AssertionArgs),
    assert { a with tokenBinding := choose used a.credential.response } ↔
    (∃ tb, assert { a with tokenBinding := tb }) ∧
      ∃ cdj, HasClientData a.credential.response cdj ∧ RightlyBound env used cdj)

end WebAuthn.Spec
