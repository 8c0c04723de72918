import Verif.Spec.Choosy

/-!
# What a key may be used for

The parameters of a COSE key (RFC 8152, 7.1), as the docstring of `CredentialPublicKey`
(types.py 1370-1398) puts it: the key type must be appropriate for the algorithm being
processed, `alg` restricts the algorithm that is used with the key, and `key_ops` the set of
operations that it is used for.
-/

namespace WebAuthn.Spec

/-- The key type is appropriate for the algorithm (RFC 8152, 8.1 and 8.2). -/
inductive SuitsType : KeyType → Alg → Prop
  | es256 : SuitsType .EC2 .ES256
  | es384 : SuitsType .EC2 .ES384
  | es512 : SuitsType .EC2 .ES512
  | eddsa : SuitsType .OKP .EDDSA

/-- The parameters permit to verify signatures of this algorithm with the key. -/
def Permits (b : KeyBase) (a : Alg) : Prop :=
  SuitsType b.kty.id a ∧ (∀ m, b.alg = some m → m.id = a) ∧
    ∀ ops, b.keyOps = some ops → ∃ o ∈ ops, o.id = .VERIFY

/-- `sig` is a signature of the algorithm over `data` by the key. -/
inductive SignedAs (env : Env) (k : CPK) (sig data : Bytes) : Alg → Prop
  | ecdsa (pk : CryptoKey) (a : Alg) (h : HashAlg) : KeyOf env k pk → EcdsaHash a h →
      env.ecdsaVerify pk h sig data = .ok () → SignedAs env k sig data a
  | eddsa (pk : CryptoKey) : KeyOf env k pk → env.eddsaVerify pk sig data = .ok () →
      SignedAs env k sig data .EDDSA

/-- Whatever the registrar, an authentication uses the stored key as its parameters permit. -/
def PermittedUse (env : Env) : Prop :=
  ∀ (σ : Type) (reg : Registrar σ) (a : AssertionArgs) (s s' s1 : σ) (cd : CredentialData)
    (cdj raw sig : Bytes) (handle : Option Bytes),
    handleAssertion env reg a s = (.ok (), s') →
    reg.getCredentialData a.credential.rawId s = (.ok (some cd), s1) →
    a.credential.response = .assertion cdj raw sig handle →
    ∃ alg, SignedAs env cd.publicKey sig (raw ++ env.sha256 cdj) alg ∧
      Permits (baseOf cd.publicKey) alg

end WebAuthn.Spec
