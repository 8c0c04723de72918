import Verif.Model.Py

/-!
# The exception classes of Python and of the dependencies

Which classes a raised exception is an instance of, as documented for the
standard library, `cbor2`, `cryptography` and `pyasn1`, and as in
`webauthn_rp/errors.py`.
-/

namespace WebAuthn.Spec

/-- The classes that occur in an `except` clause of the package, and their
bases. -/
inductive ExcClass where
  | BaseException | Exception
  | ValueError | UnicodeError | UnicodeDecodeError | JSONDecodeError | BinasciiError
  | LookupError | KeyError | TypeError | AttributeError | AssertionError | EOFError
  | CBORError | CBORDecodeError | CBORDecodeEOF | CBORDecodeValueError
  | InvalidSignature | ExtensionNotFound | PyAsn1Error
  | WebAuthnRPError
  deriving DecidableEq

/-- The classes of an exception (its method resolution order, without `object`
and without the classes below `WebAuthnRPError`). -/
def classesOf : Exc → List ExcClass
  | .lib _ => [.WebAuthnRPError, .Exception, .BaseException]
  | .valueError => [.ValueError, .Exception, .BaseException]
  | .unicodeDecodeError =>
    [.UnicodeDecodeError, .UnicodeError, .ValueError, .Exception, .BaseException]
  | .jsonDecodeError => [.JSONDecodeError, .ValueError, .Exception, .BaseException]
  | .binasciiError => [.BinasciiError, .ValueError, .Exception, .BaseException]
  | .keyError => [.KeyError, .LookupError, .Exception, .BaseException]
  | .typeError => [.TypeError, .Exception, .BaseException]
  | .attributeError => [.AttributeError, .Exception, .BaseException]
  | .assertionError => [.AssertionError, .Exception, .BaseException]
  | .eofError => [.EOFError, .Exception, .BaseException]
  | .cborDecodeError => [.CBORDecodeError, .CBORError, .Exception, .BaseException]
  | .cborDecodeEOF =>
    [.CBORDecodeEOF, .CBORDecodeError, .CBORError, .EOFError, .Exception, .BaseException]
  | .cborDecodeValueError =>
    [.CBORDecodeValueError, .CBORDecodeError, .CBORError, .ValueError, .Exception, .BaseException]
  | .invalidSignature => [.InvalidSignature, .Exception, .BaseException]
  | .extensionNotFound => [.ExtensionNotFound, .Exception, .BaseException]
  | .pyAsn1Error => [.PyAsn1Error, .Exception, .BaseException]
  | .other _ => [.Exception, .BaseException]
  | .base _ => [.BaseException]

/-- `isinstance(e, c)`. -/
def IsInstance (e : Exc) (c : ExcClass) : Prop := c ∈ classesOf e

/-- `try: ...  except (cs): raise h`: what is raised when the body raises `e`. -/
inductive Translated (cs : List ExcClass) (h : LibErr) (e : Exc) : Exc → Prop
  | caught (c : ExcClass) : c ∈ cs → IsInstance e c → Translated cs h e (.lib h)
  | passes : (∀ c ∈ cs, ¬ IsInstance e c) → Translated cs h e e

/-- What a handler of the two ceremonies reports for an exception of its body:
library errors as they are, other exceptions as `InternalError`, and what is not
an `Exception` unchanged. -/
inductive Reported (e : Exc) : Exc → Prop
  | library : IsInstance e .WebAuthnRPError → Reported e e
  | internal : ¬ IsInstance e .WebAuthnRPError → IsInstance e .Exception →
      Reported e (.lib .internal)
  | passes : ¬ IsInstance e .Exception → Reported e e

end WebAuthn.Spec
