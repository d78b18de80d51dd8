import Verif.Model.Json
/-!
# Results of Go functions, and decoding JSON into Go values
-/

namespace FcRetrieval

/-- A Go call: it returns a value, returns an error, or panics (which ends the process unless recovered). -/
inductive Res (α : Type) where
  | ok (a : α)
  | err
  | panic
  deriving DecidableEq, Repr

namespace Res
/-- Continue after a call whose error is returned at once. -/
def bind {α β : Type} (x : Res α) (f : α → Res β) : Res β :=
  match x with
  | ok a => f a
  | err => err
  | panic => panic
instance : Monad Res where
  pure := ok
  bind := Res.bind
/-- An error return. -/
def ofOption {α : Type} : Option α → Res α
  | some a => ok a
  | none => err
@[simp] theorem bind_ok {α β : Type} (a : α) (f : α → Res β) : ((ok a : Res α) >>= f) = f a := rfl
@[simp] theorem bind_err {α β : Type} (f : α → Res β) : ((err : Res α) >>= f) = err := rfl
@[simp] theorem bind_panic {α β : Type} (f : α → Res β) : ((panic : Res α) >>= f) = panic := rfl
@[simp] theorem pure_ok {α : Type} (a : α) : (pure a : Res α) = ok a := rfl
end Res

/-- `b[:n]`, `b[n:]`: out of range panics. -/
def splitAtR (b : Bytes) (n : Nat) : Res (Bytes × Bytes) :=
  if n ≤ b.length then .ok (b.take n, b.drop n) else .panic

/-! ## decoding JSON into struct fields

`json.Unmarshal` into a fresh struct: a missing member or a `null` leaves the zero value; a member of the wrong kind or
out of range is an error; unknown members are ignored.  A member counts for a field whose name it has up to case; of several
such members the last counts (here the others are not looked at). -/

/-- encoding/json fold.go: a character without its case; the long s and the Kelvin sign are the other two characters which are taken for ASCII
letters.  Field names here are ASCII. -/
def foldChar (c : Char) : Char := if c = '\u017f' then 's' else if c = '\u212a' then 'k' else c.toLower

/-- A name without its case. -/
def foldName (name : String) : List Char := name.toList.map foldChar

/-- encoding/json decode.go `object`: the member's name is that of the field, up to case.  (Go prefers a field with exactly that name;
no struct here has two fields whose names differ in case only.) -/
def sameName (name key : String) : Bool := foldName name == foldName key

/-- The member which counts for the field of that name.  Simplification, for objects with several members of that name: Go decodes each of them
in turn, so that an earlier one of a wrong type is an error as well, and a `null` after a string or number leaves that value. -/
def memberFor (name : String) : List (String × Json) → Option Json
  | [] => none
  | (k, v) :: fs =>
    match memberFor name fs with
    | some w => some w
    | none => if sameName name k then some v else none

/-- The member of exactly that name, the last one if there are several: a property of a JavaScript object. -/
def field (name : String) : List (String × Json) → Option Json
  | [] => none
  | (k, v) :: fs =>
    match field name fs with
    | some w => some w
    | none => if k = name then some v else none

/-- A top-level value into a struct: an object gives its members, `null` gives none. -/
def decObj : Json → Option (List (String × Json))
  | .obj fs => some fs
  | .null => some []
  | _ => none

/-- A `string` field. -/
def decStr : Option Json → Option (List Char)
  | none => some []
  | some .null => some []
  | some (.str s) => some s
  | some _ => none

/-- An integer field with the range of its type. -/
def decNum (lo hi : Int) : Option Json → Option Int
  | none => some 0
  | some .null => some 0
  | some (.num n) => if lo ≤ n ∧ n ≤ hi then some n else none
  | some _ => none

/-- `int64`. -/
def decI64 : Option Json → Option Int := decNum (-9223372036854775808) 9223372036854775807
/-- `int32`. -/
def decI32 : Option Json → Option Int := decNum (-2147483648) 2147483647
/-- `uint64`. -/
def decU64 (j : Option Json) : Option Nat := (decNum 0 18446744073709551615 j).map Int.toNat

/-- A `bool` field. -/
def decBool : Option Json → Option Bool
  | none => some false
  | some .null => some false
  | some (.bool b) => some b
  | some _ => none

/-- The elements of a slice field, each decoded by `f` (given the element, never absent); a nil slice and an empty one are
both the empty list. -/
def decList {α : Type} (f : Option Json → Option α) : Option Json → Option (List α)
  | none => some []
  | some .null => some []
  | some (.arr xs) => xs.mapM (fun x => f (some x))
  | some _ => none

/-- A `[]byte` field. -/
def decBytes : Option Json → Option (Option Bytes)
  | none => some none
  | some j => unjsonBytes j

/-- An `int64`, `int32` or other signed value fits. -/
def inI64 (n : Int) : Prop := -9223372036854775808 ≤ n ∧ n ≤ 9223372036854775807
/-- `int32` range. -/
def inI32 (n : Int) : Prop := -2147483648 ≤ n ∧ n ≤ 2147483647
/-- `uint64` range. -/
def inU64 (n : Nat) : Prop := n < 18446744073709551616

/-- A slice of strings. -/
def jsonStrs (l : List (List Char)) : Json := .arr (l.map .str)

end FcRetrieval
