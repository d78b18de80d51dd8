import Verif.Model.Json
/-!
# Model of node and content identifiers (`common/pkg/nodeid/nodeid.go`, `common/pkg/cid/cid.go`) and of
`common/pkg/math/distance.go`

`NodeID` and `ContentID` are both a struct with one field `id []byte` and the same functions; one model serves both.
-/

namespace FcRetrieval.Ids

/-- nodeid.go:35, cid.go:34 `WordSize`. -/
def wordSize : Nat := 32

/-- nodeid.go:38-40 `NodeID`, cid.go:37-39 `ContentID`: the bytes.  (`nil` and empty are not distinguished; neither is
built by any constructor.) -/
abbrev Id := Bytes

/-- nodeid.go:56-65 `NewNodeIDFromBytes`, cid.go:55-64 `NewContentIDFromBytes`: `copy(n.id[32-l:], id)` into 32 zero bytes;
`none` is an error. -/
def fromBytes (id : Bytes) : Option Id :=
  if id.length > wordSize then none
  else some ((List.replicate wordSize (0 : UInt8)).take (wordSize - id.length) ++ id)

/-- nodeid.go:43-53 `NewNodeID`, cid.go:42-52 `NewContentID`; `Bytes` takes the absolute value. -/
def fromBig (id : Int) : Option Id := fromBytes (natBytes id.natAbs)

/-- nodeid.go:68-81 `NewNodeIDFromHexString`, cid.go:67-73 `NewContentIDFromHexString`. -/
def fromHex (id : List Char) : Option Id :=
  match hexDecode id with
  | none => none
  | some b => fromBytes b

/-- nodeid.go:101-107, cid.go:84-90 `ToString`. -/
def toStr (n : Id) : List Char :=
  let str := hexEncode n
  if str = [] then ['0', '0'] else str

/-- nodeid.go:110-112, cid.go:93-95 `ToBytes`. -/
def toBytes (n : Id) : Bytes := n

/-- nodeid.go:115-118 `AsBytes32`: the first 32 bytes, zero-filled. -/
def asBytes32 (n : Id) : Bytes := n.take wordSize ++ List.replicate (wordSize - n.length) 0

/-- nodeid.go:121-123, cid.go:98-100 `MarshalJSON`. -/
def marshal (n : Id) : Json := jsonBytes (some n)

/-- nodeid.go:126-139, cid.go:103-116 `UnmarshalJSON`; `none` is an error. -/
def unmarshal (j : Json) : Option Id :=
  match unjsonBytes j with
  | none => none
  | some ob =>
    let id := ob.getD []
    if id.length ≠ wordSize then none else some id

/-- cid.go:124-126 `Equals`. -/
def equals (a b : Id) : Bool := toStr a = toStr b

/-- cid.go:129-135 `MapCIDToString`, nodeid.go:173-179 `MapNodeIDToString`. -/
def mapToString (ids : List Id) : List (List Char) := ids.map toStr

/-- cid.go:138-145 `MapStringToCID`, nodeid.go:182-189 `MapStringToNodeID`; `none` is the nil dereference that follows an
ignored error. -/
def mapFromString : List (List Char) → Option (List Id)
  | [] => some []
  | s :: ss =>
    match fromHex s, mapFromString ss with
    | some id, some ids => some (id :: ids)
    | _, _ => none

/-- `bytes.Compare(a, b) <= 0`: lexicographic. -/
def bytesLe : Bytes → Bytes → Bool
  | [], _ => true
  | _ :: _, [] => false
  | a :: as, b :: bs => if a.toNat < b.toNat then true else if a.toNat = b.toNat then bytesLe as bs else false

/-- nodeid.go:141-147 `sortByteArrays`.  `sort.Slice` is not stable; elements that compare equal are equal as values. -/
def sortByteArrays (src : List Id) : List Id := src.mergeSort bytesLe

/-- nodeid.go:161-166, the first position whose element is not below the start; 0 if there is none. -/
def startIndex (start : Id) (ids : List Id) : Nat :=
  match ids.findIdx? (fun v => bytesLe start v) with
  | some i => i
  | none => 0

/-- nodeid.go:150-171 `SortClockwise`, the slice returned.  Not modelled: the slice of the caller is sorted in place, and the array behind it, if it has room, is used for
the result. -/
def sortClockwise (nodeID : Id) (nodeIDs : List Id) : List Id :=
  if nodeIDs.length < 2 then nodeIDs
  else
    let sorted := sortByteArrays nodeIDs
    let i := startIndex nodeID sorted
    sorted.drop i ++ sorted.take i

/-- distance.go:26-44 `GetDistance`. -/
def getDistance (a b : Bytes) (cardinality : Int) : Int :=
  let x : Int := bytesNum a
  let y : Int := bytesNum b
  let dist1 : Int := (y - x).natAbs
  let dist2 : Int := (cardinality - dist1).natAbs
  if dist1 < dist2 then dist1 else dist2

end FcRetrieval.Ids
