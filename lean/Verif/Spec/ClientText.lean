import Verif.Spec.Data

/-!
# Specification of the text of client data

WebAuthn (7.1 and 7.2, on the JSON text of the client data) has the text be the result of "UTF-8
decode", and adds that this strips a leading byte order mark, which client data may hence have.
The standard also decodes ill-formed UTF-8, with replacement characters; this is left out here:
such client data denote nothing, as in `ClientDataOf`.
-/

namespace WebAuthn.Spec

open WebAuthn

/-- The byte order mark in UTF-8. -/
def byteOrderMark : Bytes := [0xef, 0xbb, 0xbf]

/-- The bytes `cdj` start with a byte order mark. -/
def Marked (cdj : Bytes) : Prop := byteOrderMark <+: cdj

/-- `b` is `cdj` without one leading byte order mark. -/
inductive Unmarked : (cdj b : Bytes) → Prop
  | marked (b : Bytes) : Unmarked (byteOrderMark ++ b) b
  | plain (b : Bytes) : ¬ Marked b → Unmarked b b

/-- The bytes `cdj` are client data that denote `cd`, as the standard has it. -/
def StandardClientData (env : Env) (cdj : Bytes) (cd : ClientData) : Prop :=
  ∃ b, Unmarked cdj b ∧ ClientDataOf env b cd

/-- The parser reads client data as the standard has it. -/
def ReadsClientData (parse : Env → Bytes → Py ClientData) (env : Env) : Prop :=
  ∀ cdj cd, parse env cdj = .ok cd ↔ StandardClientData env cdj cd

/-- `json.loads` refuses a text with a byte order mark in front (Python, json/__init__.py: "Unexpected
UTF-8 BOM (decode using utf-8-sig)"). -/
def JsonRefusesMark (env : Env) : Prop :=
  ∀ text, env.jsonLoads (String.ofList ('\uFEFF' :: text)) = .error .jsonDecodeError

end WebAuthn.Spec
