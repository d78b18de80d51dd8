import Verif.Model.Merkle
/-!
# Model of `client-js/src/fcrMerkleTree`

The tree is `merkletreejs` 0.2.22 (package-lock.json) with its default options; its algorithm is modelled from its documentation, level by
level.  The hash function (sha256 of `crypto-js`) is a parameter.  A content is a string; here it is the bytes that are hashed, its UTF-8
text.
-/

namespace FcRetrieval.JsMerkle
open FcRetrieval.Merkle (Hash)

/-- merkletreejs `createHashes`, one pass: neighbours are hashed together, a last node without a neighbour is moved up as it is. -/
def joinUp (H : Hash) : List Bytes → List Bytes
  | [] => []
  | [a] => [a]
  | a :: b :: l => H (a ++ b) :: joinUp H l

/-- merkletreejs `processLeaves` and `createHashes`: the layers from the leaves up; the first argument bounds the number of passes. -/
def layers (H : Hash) : Nat → List Bytes → List (List Bytes)
  | 0, nl => [nl]
  | fuel + 1, nl => if 1 < nl.length then nl :: layers H fuel (joinUp H nl) else [nl]

/-- tree.class.ts:14-20, the constructor of `FCRMerkleTree`: an odd number of contents is made even by repeating the last, in the list of the
caller (`contents.push`); the leaves are the hashes.  The result is the list of the caller afterwards, and the leaves.  For the empty list nothing is
pushed, as 0 is even. -/
def newTree (H : Hash) (contents : List Bytes) : List Bytes × List Bytes :=
  let contents := if contents.length % 2 ≠ 0 then contents ++ [contents.getLastD []] else contents
  (contents, contents.map H)

/-- merkletreejs `getRoot`: the first node of the last layer, or nothing. -/
def rootBytes (H : Hash) (leaves : List Bytes) : Bytes := ((layers H leaves.length leaves).getLastD []).headD []

/-- tree.class.ts:26-28 `getMerkleRoot`. -/
def getMerkleRoot (H : Hash) (leaves : List Bytes) : List Char := hexEncode (rootBytes H leaves)

/-- The position of a node beside the path. -/
inductive Position where
  | left
  | right
  deriving DecidableEq, Repr

/-- proof.ts:4-10 `MerkleProof`, one step. -/
structure Step where
  position : Position
  data : Bytes
  deriving DecidableEq, Repr

/-- merkletreejs `getProof`, the search for the leaf: all leaves are compared and the last that is equal counts. -/
def indexOf (leaf : Bytes) : List Bytes → Nat → Option Nat → Option Nat
  | [], _, found => found
  | l :: ls, i, found => indexOf leaf ls (i + 1) (if leaf = l then some i else found)

/-- merkletreejs `getProof`, the loop over the layers: the neighbour, if there is one. -/
def proofAux : List (List Bytes) → Nat → List Step
  | [], _ => []
  | layer :: ls, i =>
    let here :=
      if i % 2 = 1 then
        match layer[i - 1]? with
        | some d => [⟨.left, d⟩]
        | none => []
      else
        match layer[i + 1]? with
        | some d => [⟨.right, d⟩]
        | none => []
    here ++ proofAux ls (i / 2)

/-- tree.class.ts:35-37 `generateMerkleProof`: for a content that is not there the proof is empty. -/
def generate (H : Hash) (leaves : List Bytes) (content : Bytes) : List Step :=
  match indexOf (H content) leaves 0 none with
  | none => []
  | some i => proofAux (layers H leaves.length leaves) i

/-- merkletreejs `verify`, the loop. -/
def climb (H : Hash) : List Step → Bytes → Bytes
  | [], cur => cur
  | s :: ss, cur => climb H ss (match s.position with | .left => H (s.data ++ cur) | .right => H (cur ++ s.data))

/-- proof.ts:12-15 `verifyContent`.  Simplified: the root is lower-case hex, as `getMerkleRoot` writes it. -/
def verifyContent (H : Hash) (proof : List Step) (leaf : Bytes) (root : List Char) : Bool := decide (hexEncode (climb H proof leaf) = root)

end FcRetrieval.JsMerkle
