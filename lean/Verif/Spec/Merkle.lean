import Verif.Model.Merkle
import Verif.Spec.Ids
/-!
# Specification vocabulary for Merkle proofs

Hash functions that shorten their input have collisions, so a soundness statement cannot just assume that there are none.
It speaks of the strings that are hashed: those hashed when verifying a proof, and those hashed when building the tree.
-/

namespace FcRetrieval.Merkle

/-- The neighbours of a level joined. -/
def pairs : List Bytes → List Bytes
  | [] => []
  | [a] => [a ++ a]
  | a :: b :: l => (a ++ b) :: pairs l

/-- The number of neighbours joined. -/
theorem pairs_length : ∀ l : List Bytes, (pairs l).length = (l.length + 1) / 2
  | [] => rfl
  | [a] => by simp [pairs]
  | a :: b :: l => by simp [pairs, pairs_length l]; omega

/-- The root of a binary hash tree over a level. -/
def treeRoot (H : Hash) : List Bytes → Bytes
  | [] => []
  | [a] => a
  | a :: b :: l => treeRoot H ((pairs (a :: b :: l)).map H)
termination_by l => l.length
decreasing_by simp [pairs_length]; omega

/-- The strings hashed when the tree above a level is built. -/
def treeInputs (H : Hash) : Nat → List Bytes → List Bytes
  | 0, _ => []
  | fuel + 1, nl => pairs nl ++ if nl.length = 2 then [] else treeInputs H fuel (pairUp H nl)

/-- The strings hashed when a proof is verified. -/
def proofInputs (H : Hash) : List (Option Bytes) → List Int → Bytes → List Bytes
  | p :: ps, i :: is, cur =>
    let m := if i = 1 then cur ++ p.getD [] else p.getD [] ++ cur
    m :: proofInputs H ps is (H m)
  | _, _, _ => []

/-- No string hashed by the verification collides with a different string hashed by the construction of the tree. -/
def NoCollision (H : Hash) (pr : Proof) (x : Bytes) (cs : List Ids.Id) : Prop :=
  ∀ m ∈ proofInputs H (pr.path.getD []) (pr.index.getD []) x, ∀ m' ∈ treeInputs H (leaves cs).length (leaves cs),
    H m = H m' → m = m'

/-- Digests have 32 bytes. -/
def Digest32 (H : Hash) : Prop := ∀ m, (H m).length = 32

end FcRetrieval.Merkle
