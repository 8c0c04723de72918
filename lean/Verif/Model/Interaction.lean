import Verif.Model.Backend

/-!
# The handlers as sequences of registrar calls

Everything between two registrar calls is a pure computation, so a handler is a
program that returns or calls the registrar and continues with the answer.  The
handlers of `Model/Backend.lean` run this program without interruption
(`run_attestation`, `run_assertion`); crashes and interleavings cut it between
calls.  One registrar call is one atomic step.
-/

namespace WebAuthn

/-- What a handler does next. -/
inductive Prog where
  | done (r : Py Unit)
  | read (id : Bytes) (k : Py (Option CredentialData) → Prog)
  | writeAttestation (r : AttestationRecord) (k : Py (Option String) → Prog)
  | writeAssertion (r : AssertionRecord) (k : Py (Option String) → Prog)

/-- `handle_credential_attestation` (backends.py 75-230). -/
def attestationProg (env : Env) (a : AttestationArgs) : Prog :=
  match attestationChecks env a with
  | .error e => .done (finalise (.error e))
  | .ok r => .writeAttestation r fun w => .done (finalise (checkWrite w))

/-- `handle_credential_assertion` (backends.py 232-457) from the registrar's answer
on. -/
def assertionProgFrom (env : Env) (a : AssertionArgs) (allowed : List Origin)
    (r : Py (Option CredentialData)) : Prog :=
  match checkRead r with
  | .error e => .done (finalise (.error e))
  | .ok cd =>
    match assertionChecks env a allowed cd with
    | .error e => .done (finalise (.error e))
    | .ok record => .writeAssertion record fun w => .done (finalise (checkWrite w))

/-- `handle_credential_assertion` (backends.py 232-457). -/
def assertionProg (env : Env) (a : AssertionArgs) : Prog :=
  match assertionPre env a with
  | .error e => .done (finalise (.error e))
  | .ok allowed => .read a.credential.rawId (assertionProgFrom env a allowed)

variable {σ : Type}

/-- One registrar call. -/
def Prog.step (reg : Registrar σ) : Prog → σ → Prog × σ
  | .done r, s => (.done r, s)
  | .read id k, s => (k (reg.getCredentialData id s).1, (reg.getCredentialData id s).2)
  | .writeAttestation r k, s =>
    (k (reg.registerAttestation r s).1, (reg.registerAttestation r s).2)
  | .writeAssertion r k, s => (k (reg.registerAssertion r s).1, (reg.registerAssertion r s).2)

/-- At most `n` registrar calls. -/
def Prog.steps (reg : Registrar σ) : Nat → Prog → σ → Prog × σ
  | 0, p, s => (p, s)
  | n + 1, p, s => Prog.steps reg n (p.step reg s).1 (p.step reg s).2

/-- To the end. -/
def Prog.run (reg : Registrar σ) : Prog → σ → Py Unit × σ
  | .done r, s => (r, s)
  | .read id k, s => (k (reg.getCredentialData id s).1).run reg (reg.getCredentialData id s).2
  | .writeAttestation r k, s =>
    (k (reg.registerAttestation r s).1).run reg (reg.registerAttestation r s).2
  | .writeAssertion r k, s => (k (reg.registerAssertion r s).1).run reg (reg.registerAssertion r s).2

theorem run_attestation (env : Env) (reg : Registrar σ) (a : AttestationArgs) (s : σ) :
    (attestationProg env a).run reg s = handleAttestation env reg a s := by
  unfold attestationProg handleAttestation
  cases attestationChecks env a <;> rfl

theorem run_assertion (env : Env) (reg : Registrar σ) (a : AssertionArgs) (s : σ) :
    (assertionProg env a).run reg s = handleAssertion env reg a s := by
  unfold assertionProg handleAssertion
  cases assertionPre env a with
  | error e => rfl
  | ok al =>
    simp only [Prog.run, assertionProgFrom]
    cases checkRead (reg.getCredentialData a.credential.rawId s).1 with
    | error e => rfl
    | ok cd =>
      simp only
      cases assertionChecks env a al cd <;> rfl

/-! ## Several handlers on one registrar -/

/-- The handlers in progress, by thread, and the registrar's state. -/
structure System (ι σ : Type) where
  threads : ι → Prog
  state : σ

variable {ι : Type} [DecidableEq ι]

/-- Thread `i` makes its next registrar call. -/
def System.step (reg : Registrar σ) (i : ι) (x : System ι σ) : System ι σ where
  threads := fun j => if j = i then ((x.threads i).step reg x.state).1 else x.threads j
  state := ((x.threads i).step reg x.state).2

/-- The threads make their calls in the given order. -/
def System.exec (reg : Registrar σ) : List ι → System ι σ → System ι σ
  | [], x => x
  | i :: is, x => System.exec reg is (x.step reg i)

end WebAuthn
