import Verif.Model.Crypto
import Verif.Model.Ids
/-! # Model of node identifiers made from keys, and of verification by recovering the key -/

namespace FcRetrieval.Crypto

/-- nodeid.go:84-90 `NewNodeIDFromPublicKey`; `none` is an error. -/
def nodeIdFromPublicKey (P : Prims) (k : KeyPair) : Option Ids.Id :=
  match hashPublicKey P k with
  | none => none
  | some h => Ids.fromBytes h

/-- keypair_retrieval.go:158-169 `RetrievalV1Verify`; the first argument is secp256k1.go `secp256k1EcRecover` (digest,
signature; `none` is an error). -/
def retrievalV1Verify (recover : Bytes → Bytes → Option Bytes) (P : Prims) (sig m hashedPublicKey : Bytes) : Option Bool :=
  match recover (P.hash m) sig with
  | none => none
  | some pubKey => some (decide (P.hash (sigAlg :: pubKey) = hashedPublicKey))

end FcRetrieval.Crypto
