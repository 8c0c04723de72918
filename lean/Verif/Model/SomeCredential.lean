import Verif.Model.Guards

/-!
# A check for users without a credential

Not code of the repository.  `authentication_request` has a reply for users without a credential
(app.py 243-244), but compares the list of their credentials with `None`, which it never is
(`Query.all` returns a list).  Here it is compared with the empty list, as a check in front of the
application (`Verif/Model/Guards.lean`).
-/

namespace WebAuthn.Flask

/-- `if not credential_models: return ('User without credential', 400)`. -/
def someCredential : Guard := fun _ db e =>
  match e with
  | .authenticationRequest (some name) _ _ =>
    match db.userNamed name with
    | some u =>
      if db.credentials.any fun c => c.userId == u.id then none else some "User without credential"
    | none => none
  | _ => none

end WebAuthn.Flask
