import Verif.Model.Types
import Verif.Model.Asn1

/-!
# The environment: dependencies as parameters

Everything the package calls in `json`, `cbor2`, `hashlib`, `cryptography`,
`pyasn1` and the two irregular corners of `urllib.parse`.  Each is an arbitrary
function, so a theorem over all `Env` holds whatever these libraries do, as long
as they are deterministic and their results have the documented types.
-/

namespace WebAuthn

/-- `isinstance` view of `key.curve`. -/
inductive CurveClass where
  | SECP256R1 | SECP384R1 | SECP521R1
  | other (n : Nat)
  deriving DecidableEq, Repr

/-- A `cryptography` public key object, by class and contents. -/
inductive CryptoKey where
  | ec (curve : CurveClass) (x y : Nat)
  | ed25519 (raw : Bytes)
  | ed448 (raw : Bytes)
  | other (n : Nat)
  deriving DecidableEq, Repr

/-- The hash classes of `cryptography` the package names (utils.py 34-38). -/
inductive HashAlg where
  | SHA256 | SHA384 | SHA512
  deriving DecidableEq, Repr

/-- A loaded X.509 certificate, by the two things the package asks of it:
`cert.public_key()`, and
`cert.extensions.get_extension_for_oid('1.3.6.1.4.1.11129.2.1.17').value`
(`ok (some raw)`: an `UnrecognizedExtension` with these bytes; `ok none`: an
extension value of another class).  `id` tells certificates apart. -/
structure Cert where
  id : Nat
  publicKey : Py CryptoKey
  keyAttestationExt : Py (Option Bytes)

/-- The dependencies. -/
structure Env where
  /-- `json.loads(text)`. -/
  jsonLoads : String → Py PyVal
  /-- `cbor2.load(fp)` on a stream with the given remaining bytes: the value and
  the bytes left in the stream. -/
  cborLoad : Bytes → Py (PyVal × Bytes)
  /-- `cbor2.dumps(v)`. -/
  cborDumps : PyVal → Py Bytes
  /-- `hashlib.sha256(b).digest()`. -/
  sha256 : Bytes → Bytes
  /-- `urllib.parse._checknetloc` on a non-ASCII netloc: `true` when NFKC
  normalisation introduces a delimiter (`ValueError`). -/
  nfkcBad : List Char → Bool
  /-- `urllib.parse._check_bracketed_host`, called on the text between the
  brackets of a netloc: `false` means `ValueError`. -/
  bracketOk : List Char → Bool
  /-- `EllipticCurvePublicNumbers(x, y, curve).public_key(...)`: raises if the
  point is not on the curve. -/
  ecPoint : CurveClass → Nat → Nat → Py Unit
  /-- `Ed25519PublicKey.from_public_bytes(b)` raises or not. -/
  ed25519Load : Bytes → Py Unit
  /-- `Ed448PublicKey.from_public_bytes(b)` raises or not. -/
  ed448Load : Bytes → Py Unit
  /-- `key.verify(signature, data, ECDSA(hash))` of an EC key. -/
  ecdsaVerify : CryptoKey → HashAlg → (signature data : Bytes) → Py Unit
  /-- `key.verify(signature, data)` of an Ed25519 / Ed448 key. -/
  eddsaVerify : CryptoKey → (signature data : Bytes) → Py Unit
  /-- `key.public_bytes(DER, SubjectPublicKeyInfo)`. -/
  spki : CryptoKey → Bytes
  /-- `cryptography.x509.load_der_x509_certificate(b)`. -/
  loadCert : Bytes → Py Cert
  /-- `pyasn1.codec.der.decoder.decode(b, ty())[0]`. -/
  decodeDer : Asn1.Ty → Bytes → Py Asn1.Val

/-- `cbor2.loads(b)`: decodes one item and ignores what follows it. -/
def Env.cborLoads (env : Env) (b : Bytes) : Py PyVal :=
  match env.cborLoad b with
  | .ok (v, _) => .ok v
  | .error e => .error e

/-- `TrustedPath` (types.py 92). -/
abbrev TrustedPath := Option (List Cert)

end WebAuthn
