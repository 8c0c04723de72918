import Verif.Model.Backend
import Verif.Codec.Cbor
import Verif.Codec.Json
import Verif.Codec.Der

/-!
# Tests of the model

The files of this directory restate the test suite of the repository (tests/) for the model, to
check the transcription.  They prove nothing about the claims.

Keys, signatures and certificates are made at run time in the tests of the repository.  Here
they are made by a toy scheme: the public key of the private key `k` on a curve is the point
`(k, k + 1)`, a signature is the key followed by the hash and the data, and a certificate is the key
followed by the bytes of the key attestation extension.
-/

namespace WebAuthn.Tests

open WebAuthn

deriving instance DecidableEq for Except

/-- A toy digest of 32 bytes. -/
def digest (b : Bytes) : Bytes := toBE 32 (b.length * 2 ^ 240 + beNat b)

/-- The octets that stand for a key. -/
def keyOctets : CryptoKey → Bytes
  | .ec .SECP256R1 x y => 1 :: toBE 32 x ++ toBE 32 y
  | .ec .SECP384R1 x y => 2 :: toBE 48 x ++ toBE 48 y
  | .ec .SECP521R1 x y => 3 :: toBE 66 x ++ toBE 66 y
  | .ec (.other n) x y => 4 :: toBE 8 n ++ toBE 66 x ++ toBE 66 y
  | .ed25519 raw => 5 :: raw
  | .ed448 raw => 6 :: raw
  | .other n => 7 :: toBE 8 n

/-- The key that octets stand for, and what follows. -/
def keyOfOctets : Bytes → Option (CryptoKey × Bytes)
  | 1 :: r => some (.ec .SECP256R1 (beNat (r.take 32)) (beNat ((r.drop 32).take 32)), r.drop 64)
  | 2 :: r => some (.ec .SECP384R1 (beNat (r.take 48)) (beNat ((r.drop 48).take 48)), r.drop 96)
  | 5 :: r => some (.ed25519 (r.take 32), r.drop 32)
  | 6 :: r => some (.ed448 (r.take 57), r.drop 57)
  | 7 :: r => some (.other (beNat (r.take 8)), r.drop 8)
  | _ => none

def hashOctet : HashAlg → UInt8
  | .SHA256 => 1
  | .SHA384 => 2
  | .SHA512 => 3

/-- The ECDSA signature of data. -/
def signEc (k : CryptoKey) (h : HashAlg) (data : Bytes) : Bytes := keyOctets k ++ hashOctet h :: data

/-- The EdDSA signature of data. -/
def signEd (k : CryptoKey) (data : Bytes) : Bytes := keyOctets k ++ data

/-- A certificate of a key, with a key attestation extension or without. -/
def certificate (k : CryptoKey) (ext : Option Bytes) : Bytes :=
  0x30 :: keyOctets k ++ (match ext with | none => [] | some e => 1 :: e)

def env : Env where
  jsonLoads := Json.loads
  cborLoad := Cbor.load
  cborDumps := Cbor.enc
  sha256 := digest
  nfkcBad := fun _ => false
  bracketOk := fun _ => false
  ecPoint := fun _ x y => if y = x + 1 then .ok () else .error .valueError
  ed25519Load := fun b => if b.length = 32 then .ok () else .error .valueError
  ed448Load := fun b => if b.length = 57 then .ok () else .error .valueError
  ecdsaVerify := fun k h sig data =>
    if sig = signEc k h data then .ok () else .error .invalidSignature
  eddsaVerify := fun k sig data =>
    if sig = signEd k data then .ok () else .error .invalidSignature
  spki := keyOctets
  loadCert := fun
    | 0x30 :: r => match keyOfOctets r with
      | some (k, rest) => .ok {
          id := beNat r
          publicKey := .ok k
          keyAttestationExt := match rest with
            | [] => .error .extensionNotFound
            | _ :: e => .ok (some e) }
      | none => .error .valueError
    | _ => .error .valueError
  decodeDer := Der.decode

/-- The public key of `k` on the curve, as the package represents it
(`generate_ec2_credential_public_key`, tests/common.py 199-212). -/
def ec2Key (crv : Curve) (alg : Option (NV Alg)) (k : Nat) : CPK :=
  let n := curveCoordinateByteLength (.value crv)
  .ec2 { kty := .value .EC2, alg } (toBE n k) (toBE n (k + 1)) (.value crv)

/-- `generate_okp_credential_public_key` (tests/common.py 226-243). -/
def okpKey (crv : Curve) (alg : Option (NV Alg)) (k : Nat) : CPK :=
  .okp { kty := .value .OKP, alg } (.value crv)
    (toBE (curveCoordinateByteLength (.value crv)) k)

/-- `single_byte_errors` (tests/common.py 59-64). -/
def singleByteErrors (data : Bytes) : List Bytes :=
  (List.range data.length).map fun i =>
    data.take (if i = 0 then data.length - 1 else i - 1) ++ [data.getD i 0 + 1] ++ data.drop (i + 1)

/-- A tag, a length below 128 and contents. -/
def tlv (tag contents : Bytes) : Bytes := tag ++ UInt8.ofNat contents.length :: contents

/-- The DER encoding of the key description of `generate_android_extensions`
(tests/common.py 103-132). -/
def androidExtension (challenge : Bytes) : Bytes :=
  let enforced := tlv [0x30] (tlv [0xa1] (tlv [0x31] (tlv [2] [2])) ++
    tlv [0xbf, 0x85, 0x3e] (tlv [2] [0]))
  tlv [0x30] (tlv [2] [0] ++ tlv [10] [0] ++ tlv [2] [0] ++ tlv [10] [0] ++ tlv [4] challenge ++
    tlv [4] (utf8Encode "unique") ++ enforced ++ enforced)

/-- `a == b` for values without sets, whose dictionaries have distinct keys; the number bounds
the depth. -/
def same : Nat → PyVal → PyVal → Bool
  | n + 1, .dict d, .dict e => d.length == e.length &&
      d.all fun kv => e.any fun kw => same n kv.1 kw.1 && same n kv.2 kw.2
  | n + 1, .list l, .list m => l.length == m.length && (l.zip m).all fun p => same n p.1 p.2
  | _, .str s, .str t => s == t
  | _, .int n, .int m => n == m
  | _, .float f, .float g => f == g
  | _, .bool b, .bool c => b == c
  | _, .bytes b, .bytes c => b == c
  | _, .none, .none => true
  | _, _, _ => false

/-- The call returns a value that is equal to the expected one. -/
def gives (r : Py PyVal) (v : PyVal) : Bool :=
  match r with
  | .ok w => same 10 w v
  | .error _ => false

/-- `with pytest.raises(...)`: the call raises an error of one of these classes. -/
def raises {α : Type} (es : List LibErr) : Py α → Bool
  | .error (.lib e) => es.contains e
  | _ => false

/-- `type(v) in (bytes, str)`. -/
def bytesOrStr? : PyVal → Option (Bytes ⊕ String)
  | .bytes b => some (.inl b)
  | .str s => some (.inr s)
  | _ => none

/-- `type(v) in (int, bytes)`. -/
def intOrBytes? : PyVal → Option (Int ⊕ Bytes)
  | .int n => some (.inl n)
  | .bytes b => some (.inr b)
  | _ => none

/-- The parts of client data that can be compared. -/
structure ClientDataView where
  type : String
  challenge : String
  origin : String
  tokenBinding : Option (TokenBindingStatus × Option String)
  deriving DecidableEq

/-- `parse_client_data`, with a result that can be compared. -/
def clientDataOf (b : Bytes) : Py ClientDataView := do
  let c ← parseClientData env b
  return ⟨c.type, c.challenge, c.origin, c.tokenBinding.map fun t => (t.status, t.id.asStr?)⟩

end WebAuthn.Tests
