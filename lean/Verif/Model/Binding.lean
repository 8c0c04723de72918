import Verif.Model.Backend

/-!
# Choosing the `token_binding` argument

Not code of the repository. `handle_credential_attestation` and `handle_credential_assertion`
compare the `token_binding` argument with what the client reported (backends.py 150-170, 382-402);
the example application gives none (examples/flask/app.py 222-227, 306-311). Here is how a caller
can find the argument from the state of the connection: it has to look into the client data first.
-/

namespace WebAuthn

/-- `used` is the identifier of the token binding of the connection, base64url encoded. -/
def chosenBinding (env : Env) (used : Option String) (r : Response) : Option TokenBinding :=
  match used with
  | some id => some ⟨.PRESENT, some id⟩
  | none =>
    match parseClientData env r.clientDataJSON with
    | .error _ => none
    | .ok cd =>
      match cd.tokenBinding with
      | some ⟨.SUPPORTED, .none⟩ => some ⟨.SUPPORTED, none⟩
      | some ⟨.SUPPORTED, .str id⟩ => some ⟨.SUPPORTED, some id⟩
      | _ => none

end WebAuthn
