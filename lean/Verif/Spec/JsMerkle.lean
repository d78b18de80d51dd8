import Verif.Model.JsMerkle
import Verif.Spec.Merkle
/-!
# Specification vocabulary for the Merkle trees of the JavaScript client
-/

namespace FcRetrieval.JsMerkle
open FcRetrieval.Merkle (Hash)

/-- The strings hashed when one layer is joined to the next. -/
def joined : List Bytes → List Bytes
  | a :: b :: l => (a ++ b) :: joined l
  | _ => []

/-- The strings hashed when the layers above the leaves are built. -/
def inputs (H : Hash) (leaves : List Bytes) : List Bytes := (layers H leaves.length leaves).flatMap joined

/-- Two collections of strings in which only equal strings have equal hashes. -/
def Apart (H : Hash) (ms ms' : List Bytes) : Prop := ∀ m ∈ ms, ∀ m' ∈ ms', H m = H m' → m = m'

end FcRetrieval.JsMerkle
