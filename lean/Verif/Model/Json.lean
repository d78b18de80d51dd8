import Verif.Model.Bytes
/-!
# JSON values and Go's decoding rules

`encoding/json` at the level of values: the texts are in `Model.JsonText`.  Numbers are integers (the code exchanges no
others).  Keys are kept as written; how they are matched with field names is in `Model.Go`.
-/

namespace FcRetrieval

/-- A JSON value. -/
inductive Json where
  | null
  | bool (b : Bool)
  | num (n : Int)
  | str (s : List Char)
  | arr (xs : List Json)
  | obj (fields : List (String × Json))

/-- `json.Marshal` of a `[]byte`: a base64 string; a nil slice gives `null`. -/
def jsonBytes : Option Bytes → Json
  | none => .null
  | some bs => .str (b64Encode bs)

/-- One element of an array decoded into a `[]byte`. -/
def unjsonByte : Json → Option UInt8
  | .null => some 0
  | .num n => if 0 ≤ n ∧ n ≤ 255 then some (UInt8.ofNat n.toNat) else none
  | _ => none

/-- `json.Unmarshal` into a nil `[]byte`: base64 from a string, element by element from an array, nil from `null`. -/
def unjsonBytes : Json → Option (Option Bytes)
  | .null => some none
  | .str s =>
    match b64Decode s with
    | none => none
    | some bs => some (some bs)
  | .arr xs =>
    match xs.mapM unjsonByte with
    | none => none
    | some bs => some (some bs)
  | _ => none

end FcRetrieval
