import Verif.Spec.FlaskOutcome

/-!
# Other names (C103)

docs/source/getting-started/server-configuration.rst 57-61: "A user handle is a byte string that the
Relying Party uses to identify the user but should contain no personally identifiable information,
i.e. not a username or email address."
-/

namespace WebAuthn.Flask

open WebAuthn WebAuthn.Spec

/-- The same request of a user with another name. -/
def renamed (π : String → String) : Event → Event
  | .registrationRequest n h c t => .registrationRequest (n.map π) h c t
  | .registrationResponse f t => .registrationResponse { f with username := f.username.map π } t
  | .authenticationRequest n c t => .authenticationRequest (n.map π) c t
  | .authenticationResponse f t => .authenticationResponse { f with username := f.username.map π } t

/-- The same tables, with other names. -/
def renamedTables (π : String → String) (db : Db) : Db :=
  { db with users := db.users.map fun u => { u with username := π u.username } }

/-- The same reply, but for the name in the options of a registration. -/
inductive RenamedReply (π : String → String) : Reply → Reply → Prop
  | text (m : String) (n : Nat) : RenamedReply π (.text m n) (.text m n)
  | crash (e : Exc) : RenamedReply π (.crash e) (.crash e)
  | login (n : Int) (v : PyVal) :
      RenamedReply π (.json (.dict [(.str "challengeID", .int n), (.str "requestOptions", v)]))
        (.json (.dict [(.str "challengeID", .int n), (.str "requestOptions", v)]))
  | registration (n : Int) (name : String) (handle challenge : Bytes) (v v' : PyVal) :
      CreationReply name handle challenge v → CreationReply (π name) handle challenge v' →
      RenamedReply π (.json (.dict [(.str "challengeID", .int n), (.str "creationOptions", v)]))
        (.json (.dict [(.str "challengeID", .int n), (.str "creationOptions", v')]))

/-- Names are names and nothing else: with other names, of which no two are alike, all is the same
but for the names. -/
def NamesOnly (run : List Event → Db) (reply : List Event → Event → Reply) : Prop :=
  ∀ (π : String → String), Function.Injective π → ∀ evs : List Event,
    run (evs.map (renamed π)) = renamedTables π (run evs) ∧
    ∀ e, RenamedReply π (reply evs e) (reply (evs.map (renamed π)) (renamed π e))

end WebAuthn.Flask
