import Verif.Model.Message
import Verif.Model.Offer
/-!
# Message bodies: structs with JSON tags

Every file of `common/pkg/fcrmessages` declares a struct, an `Encode…` that fills and marshals it, and a `Decode…` that checks
the type code, unmarshals it and converts the fields.  Here a struct is a list of tagged fields, and a `Codec` the pair of
functions.  A nil slice is the empty list (Go writes `null` for it, which is read as nil).  When several fields are faulty the
first in the order of the struct decides whether the result is an error or a crash.
-/

namespace FcRetrieval.Wire
open FcRetrieval.Ids (Id)
open FcRetrieval.Merkle (Hash)
open FcRetrieval.Message (Msg Protocol)

/-- A field type with its JSON encoding; the decoder gets `none` when the member is missing. -/
structure FieldT where
  T : Type
  enc : T → Res Json
  dec : Option Json → Res T

/-- A struct: tags and types of its fields. -/
abbrev Schema := List (String × FieldT)

/-- Values of a struct. -/
def Vals : Schema → Type
  | [] => Unit
  | (_, f) :: s => f.T × Vals s

/-- `json.Marshal` of a struct. -/
def encFields : (s : Schema) → Vals s → Res (List (String × Json))
  | [], _ => .ok []
  | (name, f) :: s, (v, vs) => do
    let j ← f.enc v
    let js ← encFields s vs
    return (name, j) :: js

/-- `json.Unmarshal` into a zero struct. -/
def decFields : (s : Schema) → List (String × Json) → Res (Vals s)
  | [], _ => .ok ()
  | (name, f) :: s, fs => do
    let v ← f.dec (memberFor name fs)
    let vs ← decFields s fs
    return (v, vs)

/-! ## field types -/

/-- `string`. -/
def str : FieldT := ⟨List Char, fun s => .ok (.str s), fun j => Res.ofOption (decStr j)⟩
/-- `int64`. -/
def i64 : FieldT := ⟨Int, fun n => .ok (.num n), fun j => Res.ofOption (decI64 j)⟩
/-- `int32`. -/
def i32 : FieldT := ⟨Int, fun n => .ok (.num n), fun j => Res.ofOption (decI32 j)⟩
/-- `uint64`. -/
def u64 : FieldT := ⟨Nat, fun n => .ok (.num n), fun j => Res.ofOption (decU64 j)⟩
/-- `uint32`. -/
def u32 : FieldT := ⟨UInt32, fun n => .ok (.num n.toNat), fun j => Res.ofOption ((decNum 0 4294967295 j).map (fun n => UInt32.ofNat n.toNat))⟩
/-- `bool`. -/
def bool : FieldT := ⟨Bool, fun b => .ok (.bool b), fun j => Res.ofOption (decBool j)⟩

/-- Elements one after the other. -/
def encAll {α : Type} (f : α → Res Json) : List α → Res (List Json)
  | [] => .ok []
  | a :: l => do
    let j ← f a
    let js ← encAll f l
    return j :: js

/-- Elements one after the other. -/
def decAll {α : Type} (f : Option Json → Res α) : List Json → Res (List α)
  | [] => .ok []
  | j :: l => do
    let a ← f (some j)
    let as ← decAll f l
    return a :: as

/-- A slice. -/
def slice (f : FieldT) : FieldT where
  T := List f.T
  enc l := do
    let js ← encAll f.enc l
    return .arr js
  dec
    | none => .ok []
    | some .null => .ok []
    | some (.arr xs) => decAll f.dec xs
    | some _ => .err

/-- A nested `FCRMessage`; a missing one is the zero message. -/
def msg : FieldT where
  T := Msg
  enc m := .ok (Message.marshal m)
  dec
    | none => .ok { type := 0, version := 0, supported := none, body := none, signature := [] }
    | some j => Message.unmarshal j
/-- A nested `cidoffer.CIDOffer`; a missing one is the zero offer. -/
def offer (H : Hash) : FieldT where
  T := Offer.CidOffer
  enc := Offer.marshal
  dec
    | none => .ok { providerID := none, cids := [], price := 0, expiry := 0, qos := 0, signature := [], merkleRoot := [] }
    | some j => Offer.unmarshal H j
/-- A nested `cidoffer.SubCIDOffer` (always inside a slice, never missing). -/
def subOffer : FieldT where
  T := Offer.SubOffer
  enc := Offer.subMarshal
  dec
    | none => .err
    | some j => Offer.subUnmarshal j
/-- A nested `fcrmerkletree.FCRMerkleProof`; a missing one is the zero proof. -/
def proof : FieldT where
  T := Merkle.Proof
  enc p := .ok (Merkle.marshal p)
  dec := Offer.decProof

/-! ## codecs -/

/-- One message kind: type code, struct, and the conversions between arguments and struct. -/
structure Codec (α : Type) where
  code : Int
  schema : Schema
  toWire : α → Res (Vals schema)
  ofWire : Vals schema → Res α

/-- The common shape of all `Encode…`. -/
def encode {α : Type} (c : Codec α) (pr : Protocol) (a : α) : Res Msg := do
  let v ← c.toWire a
  let fs ← encFields c.schema v
  return Message.create pr c.code (some (Message.jsonText (.obj fs)))

/-- The common shape of all `Decode…`; a nil body is the empty text. -/
def decode {α : Type} (c : Codec α) (m : Msg) : Res α := do
  if m.type ≠ c.code then Res.err
  else
    let j ← Res.ofOption (Message.parseText (m.body.getD []))
    let fs ← Res.ofOption (decObj j)
    let v ← decFields c.schema fs
    c.ofWire v

/-- `x.ToString()` on a pointer. -/
def idStr : Option Id → Res (List Char)
  | none => .panic
  | some id => .ok (Ids.toStr id)

/-- `MapStringToCID`, `MapStringToNodeID`: a malformed string is a nil dereference. -/
def ids (ss : List (List Char)) : Res (List Id) :=
  match Ids.mapFromString ss with
  | none => .panic
  | some l => .ok l

end FcRetrieval.Wire
