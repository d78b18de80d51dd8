import Verif.Model.Message
import Verif.Spec.Crypto
/-!
# Specification vocabulary for message envelopes
-/

namespace FcRetrieval.Message

/-- What a signature is about: type, version, supported versions, body. -/
def content (m : Msg) : Int × Int × Option (List Int) × Option Bytes := (m.type, m.version, m.supported, m.body)

/-- The numbers of a message are in the range of their types. -/
def InRange (m : Msg) : Prop :=
  inI32 m.type ∧ inI32 m.version ∧ ∀ l, m.supported = some l → ∀ n ∈ l, inI32 n

/-- A sequence of verifications of one message: the answers. -/
def verifyAll (P : Crypto.Prims) : List Crypto.KeyPair → Msg → List Bool
  | [], _ => []
  | k :: ks, m => (verify P k m).2 :: verifyAll P ks (verify P k m).1

end FcRetrieval.Message
