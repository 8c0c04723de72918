import Verif.Spec.Base64
import Verif.Spec.Basic

/-!
# Specification of what the page does to texts and options

`atob` of the Infra standard (section 8, forgiving-base64 decode), and the changes
that app.html 33-64 makes to an object, as relations between objects.
-/

namespace WebAuthn.Flask

open WebAuthn WebAuthn.Spec

/-- ASCII white space of the Infra standard. -/
def asciiWhiteSpace : List Char := ['\t', '\n', '\x0c', '\r', ' ']

/-- Forgiving-base64 decode of `s` is `b`: without white space, `s` is characters of
the alphabet, not one more than a multiple of four, and possibly one or two pads that
complete a multiple of four. -/
def Atob (s : String) (b : Bytes) : Prop :=
  ∃ data pad v, s.toList.filter (fun c => decide (c ∉ asciiWhiteSpace)) = data ++ List.replicate pad '=' ∧
    (pad = 0 ∨ pad ≤ 2 ∧ (data.length + pad) % 4 = 0) ∧ data.length % 4 ≠ 1 ∧
    data.map stdAlphabet.idxOf? = v.map some ∧ BytesOfSextets v b

/-- The byte array of a text. -/
def Decoded (v w : PyVal) : Prop := ∃ s b, v = .str s ∧ w = .bytes b ∧ Atob s b

/-- `d'` is `d` with another value at `name`, in the same place, which is `R`-related
to the old one. -/
def Changed (name : String) (R : PyVal → PyVal → Prop) (d d' : Dict) : Prop :=
  ∃ pre v w post, d = pre ++ (.str name, v) :: post ∧ d' = pre ++ (.str name, w) :: post ∧
    (∀ kv ∈ pre, kv.1 ≠ .str name) ∧ R v w

/-- The same if there is such a member; otherwise nothing changes. -/
def ChangedIfThere (name : String) (R : PyVal → PyVal → Prop) (d d' : Dict) : Prop :=
  Changed name R d d' ∨ (∀ kv ∈ d, kv.1 ≠ .str name) ∧ d' = d

/-- Objects whose members are `R`-related. -/
def Objects (R : Dict → Dict → Prop) (v w : PyVal) : Prop := ∃ d d', v = .dict d ∧ w = .dict d' ∧ R d d'

/-- Arrays of the same length whose elements are `R`-related. -/
def Arrays (R : PyVal → PyVal → Prop) (v w : PyVal) : Prop :=
  ∃ vs ws, v = .list vs ∧ w = .list ws ∧ List.Forall₂ R vs ws

/-- Creation options before and after: in `publicKey`, the challenge, if there, is
decoded, and then the id of the user, if there. -/
def CreationParsed : PyVal → PyVal → Prop :=
  Objects (Changed "publicKey" (Objects fun d d' => ∃ m,
    ChangedIfThere "challenge" Decoded d m ∧
    ChangedIfThere "user" (Objects (ChangedIfThere "id" Decoded)) m d'))

/-- Request options before and after: in `publicKey`, the challenge, if there, is
decoded, and then the id of every allowed credential, if there are any. -/
def RequestParsed : PyVal → PyVal → Prop :=
  Objects (Changed "publicKey" (Objects fun d d' => ∃ m,
    ChangedIfThere "challenge" Decoded d m ∧
    ChangedIfThere "allowCredentials" (Arrays (Objects (Changed "id" Decoded))) m d'))

end WebAuthn.Flask
