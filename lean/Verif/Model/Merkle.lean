import Verif.Model.Ids
import Verif.Model.Go
import Verif.Model.JsonText
/-!
# Model of `common/pkg/fcrmerkletree`

The tree is `github.com/cbergoon/merkletree` v0.2.0; its algorithm is modelled level by level (a level is the list of
hashes from left to right).  The hash function (sha256) is a parameter.  The contents are `cid.ContentID`, whose hash is
the identifier itself (cid.go:119-121 `CalculateHash`).
-/

namespace FcRetrieval.Merkle
open FcRetrieval.Ids (Id)

/-- The hash function. -/
abbrev Hash := Bytes → Bytes

/-- merkletree `buildIntermediate`, one pass: neighbours are hashed together, a last node without a neighbour with itself. -/
def pairUp (H : Hash) : List Bytes → List Bytes
  | [] => []
  | [a] => [H (a ++ a)]
  | a :: b :: l => H (a ++ b) :: pairUp H l

/-- merkletree `buildIntermediate`, all passes, until the level with two nodes has been joined; the first argument bounds the
number of passes. -/
def buildRoot (H : Hash) : Nat → List Bytes → Bytes
  | 0, _ => []
  | fuel + 1, nl => if nl.length = 2 then (pairUp H nl).headD [] else buildRoot H fuel (pairUp H nl)

/-- merkletree `buildWithContent`: an odd number of leaves is made even by repeating the last. -/
def leaves (cs : List Id) : List Bytes :=
  if cs.length % 2 = 1 then cs ++ [cs.getLastD []] else cs

/-- merkletree `NewTree` and `MerkleRoot`; `none` is the error for an empty list (tree.go:30-36 `CreateMerkleTree`). -/
def rootBytes (H : Hash) (cs : List Id) : Option Bytes :=
  if cs = [] then none else some (buildRoot H (leaves cs).length (leaves cs))

/-- tree.go:39-41 `GetMerkleRoot`. -/
def rootHex (H : Hash) (cs : List Id) : Option (List Char) := (rootBytes H cs).map hexEncode

/-- proof.go:32-35 `FCRMerkleProof`; a nil slice is `none`. -/
structure Proof where
  path : Option (List (Option Bytes))
  index : Option (List Int)
  deriving DecidableEq

/-- merkletree `GetMerklePath`, from the leaf at position `i` upwards: the other child of the parent, with 1 if it is the right
one.  Which child is the current node is found by comparing hashes with the left child. -/
def pathAux (H : Hash) : Nat → List Bytes → Nat → List (Bytes × Int)
  | 0, _, _ => []
  | fuel + 1, nl, i =>
    let left := nl.getD (2 * (i / 2)) []
    let right := nl.getD (2 * (i / 2) + 1) left
    let step := if left = nl.getD i [] then (right, 1) else (left, 0)
    if nl.length = 2 then [step] else step :: pathAux H fuel (pairUp H nl) (i / 2)

/-- tree.go:44-50 `GenerateMerkleProof` with merkletree `GetMerklePath`: the first leaf that `Equals` the content; if there is
none both slices are nil and there is no error. -/
def generate (H : Hash) (cs : List Id) (x : Id) : Proof :=
  match (leaves cs).findIdx? (fun c => Ids.equals c x) with
  | none => { path := none, index := none }
  | some i =>
    let p := pathAux H (leaves cs).length (leaves cs) i
    { path := some (p.map fun s => some s.1), index := some (p.map fun s => s.2) }

/-- proof.go:40-48, the loop of `VerifyContent`; a missing index panics. -/
def verifyLoop (H : Hash) : List (Option Bytes) → List Int → Bytes → Res Bytes
  | [], _, cur => .ok cur
  | _ :: _, [], _ => .panic
  | p :: ps, i :: is, cur =>
    verifyLoop H ps is (if i = 1 then H (cur ++ p.getD []) else H (p.getD [] ++ cur))

/-- proof.go:38-50 `VerifyContent`; a nil content pointer panics. -/
def verify (H : Hash) (pr : Proof) (x : Option Id) (root : List Char) : Res Bool :=
  match x with
  | none => .panic
  | some x =>
    match verifyLoop H (pr.path.getD []) (pr.index.getD []) x with
    | .ok cur => .ok (decide (hexEncode cur = root))
    | .err => .err
    | .panic => .panic

/-! ## serialisation -/

/-- `json.Marshal` of the path, proof.go:55. -/
def pathJson (p : Option (List (Option Bytes))) : Json :=
  match p with
  | none => .null
  | some l => .arr (l.map jsonBytes)

/-- `json.Marshal` of the index, proof.go:63. -/
def indexJson (p : Option (List Int)) : Json :=
  match p with
  | none => .null
  | some l => .arr (l.map .num)

/-- proof.go:53-76, the bytes before the outer `json.Marshal`; the lengths are cut to 32 bits. -/
def marshalBytes (pr : Proof) : Bytes :=
  let pathBytes := asciiBytes (render (pathJson pr.path))
  let indexBytes := asciiBytes (render (indexJson pr.index))
  be32 pathBytes.length ++ pathBytes ++ be32 indexBytes.length ++ indexBytes

/-- proof.go:53-76 `MarshalJSON`. -/
def marshal (pr : Proof) : Json := jsonBytes (some (marshalBytes pr))

/-- `binary.BigEndian.Uint32`. -/
def u32 (b : Bytes) : Nat := bytesNum b

/-- `json.Unmarshal` into a nil `[][]byte`. -/
def decPath : Json → Option (Option (List (Option Bytes)))
  | .null => some none
  | .arr xs => (xs.mapM unjsonBytes).map some
  | _ => none

/-- `json.Unmarshal` into a nil `[]int64`. -/
def decIndex : Json → Option (Option (List Int))
  | .null => some none
  | .arr xs => (xs.mapM fun x => decI64 (some x)).map some
  | _ => none

/-- proof.go:79-120 `UnmarshalJSON`, after the outer `json.Unmarshal`. -/
def unmarshalBytes (current : Bytes) : Res Proof := do
  if current.length ≤ 4 then Res.err
  else
    let (data, current) ← splitAtR current 4
    let length1 := u32 data
    if current.length ≤ length1 then Res.err
    else
      let (data, current) ← splitAtR current length1
      let path ← Res.ofOption ((parseJson (asciiText data)).bind decPath)
      if current.length ≤ 4 then Res.err
      else
        let (data, current) ← splitAtR current 4
        let length2 := u32 data
        if current.length ≠ length2 then Res.err
        else
          let index ← Res.ofOption ((parseJson (asciiText current)).bind decIndex)
          pure { path := path, index := index }

/-- proof.go:79-120 `UnmarshalJSON`. -/
def unmarshal (j : Json) : Res Proof :=
  match unjsonBytes j with
  | none => .err
  | some ob => unmarshalBytes (ob.getD [])

end FcRetrieval.Merkle
