/-!
# Specification of the conversion of names

`publicKey` and `public_key`, for ASCII letters.
-/

namespace WebAuthn.Spec

def upperLetters : List Char := "ABCDEFGHIJKLMNOPQRSTUVWXYZ".toList
def lowerLetters : List Char := "abcdefghijklmnopqrstuvwxyz".toList

/-- The capital letter, if the character is a small letter. -/
def upper (c : Char) : Char := ((lowerLetters.zip upperLetters).lookup c).getD c

/-- The small letter, if the character is a capital letter. -/
def lower (c : Char) : Char := ((upperLetters.zip lowerLetters).lookup c).getD c

/-- The name in camel case: underscores are left out; a character right after one
becomes a capital letter, unless nothing comes before it. -/
def camel (started after : Bool) : List Char → List Char
  | [] => []
  | c :: s =>
    if c = '_' then camel started true s
    else (if started && after then upper c else c) :: camel true false s

/-- The name in snake case: each capital letter becomes a small one after an
underscore. -/
def snake (s : List Char) : List Char :=
  s.flatMap fun c => if c ∈ upperLetters then ['_', lower c] else [c]

/-- The name of a member in JSON. -/
def jsonName (convert : Bool) (s : String) : String :=
  if convert then .ofList (camel false false s.toList) else s

end WebAuthn.Spec
