import Verif.Model.Crypto
/-!
# Specification vocabulary for keys and signatures
-/

namespace FcRetrieval.Crypto

/-! ## assumptions on the primitives, used as hypotheses -/

/-- Signing produces 65 bytes of which the first 64 verify under the matching public key. -/
def Correct (P : Prims) : Prop :=
  ∀ sk d sig, P.sign d sk = some sig → sig.length = 65 ∧ P.verify (P.pub sk) d (sig.take 64) = true

/-- No signature is valid for two different digests under this key. -/
def Binding (P : Prims) (pk : Bytes) : Prop :=
  ∀ d d' s, P.verify pk d s = true → P.verify pk d' s = true → d = d'

/-- A toy scheme, to show that the assumptions can be met: the signature is the digest (made to 64 bytes) and the public key
is the private key padded to 65 bytes. -/
def toy : Prims where
  hash m := m.take 32 ++ List.replicate (32 - m.length) 0
  pub sk := sk.take 32 ++ List.replicate 33 7
  sign d _ := if d.length = 32 then some (d ++ List.replicate 33 9) else none
  verify _ d s := decide (s = d ++ List.replicate 32 9 ∧ d.length = 32)

/-- A private key as the library builds them. -/
def PrivateKey (k : KeyPair) : Prop := k.alg = sigAlg ∧ k.pubKey = none ∧ ∃ b : Bytes, k.pKey = some b ∧ b.length = 32
/-- A public key as the library builds them. -/
def PublicKey (k : KeyPair) : Prop := k.alg = sigAlg ∧ k.pKey = none ∧ ∃ b : Bytes, k.pubKey = some b ∧ b.length = 65

end FcRetrieval.Crypto
