/-!
# Byte strings and their text encodings

`encoding/hex`, `encoding/base64` (`StdEncoding`), `math/big` byte conversions and `encoding/binary` (big endian), as far
as the code uses them.  Library behaviour, from the libraries' documentation; the call sites in `/repo` are cited.
-/

namespace FcRetrieval

/-- A Go `[]byte`. -/
abbrev Bytes := List UInt8

/-! ## hex -/

/-- The digits `hex.EncodeToString` writes. -/
def hexChars : List Char := ['0', '1', '2', '3', '4', '5', '6', '7', '8', '9', 'a', 'b', 'c', 'd', 'e', 'f']

/-- The digit for a number below 16. -/
def hexChar (n : Nat) : Char := hexChars.getD n '0'

/-- The number of a digit, either case; `none` for other characters (`hex.DecodeString` then fails). -/
def hexVal (c : Char) : Option Nat :=
  if '0' ≤ c ∧ c ≤ '9' then some (c.toNat - 48)
  else if 'a' ≤ c ∧ c ≤ 'f' then some (c.toNat - 87)
  else if 'A' ≤ c ∧ c ≤ 'F' then some (c.toNat - 55)
  else none

/-- `hex.EncodeToString` (nodeid.go:102, cid.go:85, msg_signing.go:44). -/
def hexEncode : Bytes → List Char
  | [] => []
  | b :: bs => hexChar (b.toNat / 16) :: hexChar (b.toNat % 16) :: hexEncode bs

/-- `hex.DecodeString` (nodeid.go:70, cid.go:68, msg_signing.go:51): `none` is an error (odd length, bad character). -/
def hexDecode : List Char → Option Bytes
  | [] => some []
  | [_] => none
  | c :: d :: cs =>
    match hexVal c, hexVal d, hexDecode cs with
    | some x, some y, some bs => some (UInt8.ofNat (16 * x + y) :: bs)
    | _, _, _ => none

/-! ## base64 -/

/-- The alphabet of `base64.StdEncoding`. -/
def b64Chars : List Char :=
  ['A', 'B', 'C', 'D', 'E', 'F', 'G', 'H', 'I', 'J', 'K', 'L', 'M', 'N', 'O', 'P', 'Q', 'R', 'S', 'T', 'U', 'V', 'W', 'X', 'Y', 'Z',
   'a', 'b', 'c', 'd', 'e', 'f', 'g', 'h', 'i', 'j', 'k', 'l', 'm', 'n', 'o', 'p', 'q', 'r', 's', 't', 'u', 'v', 'w', 'x', 'y', 'z',
   '0', '1', '2', '3', '4', '5', '6', '7', '8', '9', '+', '/']

/-- The character for a number below 64. -/
def b64Char (n : Nat) : Char := b64Chars.getD n 'A'

/-- The number of a character of the alphabet. -/
def b64Val (c : Char) : Option Nat := b64Chars.idxOf? c

/-- `base64.StdEncoding.EncodeToString`, used by `json.Marshal` for `[]byte` (nodeid.go:122, cid.go:99). -/
def b64Encode : Bytes → List Char
  | [] => []
  | [a] => [b64Char (a.toNat / 4), b64Char (a.toNat % 4 * 16), '=', '=']
  | [a, b] => [b64Char (a.toNat / 4), b64Char (a.toNat % 4 * 16 + b.toNat / 16), b64Char (b.toNat % 16 * 4), '=']
  | a :: b :: c :: bs =>
    b64Char (a.toNat / 4) :: b64Char (a.toNat % 4 * 16 + b.toNat / 16) :: b64Char (b.toNat % 16 * 4 + c.toNat / 64) ::
      b64Char (c.toNat % 64) :: b64Encode bs

/-- One final or inner group of four characters: three bytes, or fewer with padding. -/
def b64Group (p q r s : Char) : Option (Bytes × Bool) :=
  match b64Val p, b64Val q with
  | some w, some x =>
    let a := UInt8.ofNat (w * 4 + x / 16)
    if r = '=' then
      if s = '=' then some ([a], true) else none
    else
      match b64Val r with
      | none => none
      | some y =>
        let b := UInt8.ofNat (x % 16 * 16 + y / 4)
        if s = '=' then some ([a, b], true)
        else
          match b64Val s with
          | none => none
          | some z => some ([a, b, UInt8.ofNat (y % 4 * 64 + z)], false)
  | _, _ => none

/-- Decoding groups of four; padding only in the last group. -/
def b64Groups : List Char → Option Bytes
  | [] => some []
  | p :: q :: r :: s :: cs =>
    match b64Group p q r s with
    | none => none
    | some (bs, true) => if cs = [] then some bs else none
    | some (bs, false) =>
      match b64Groups cs with
      | none => none
      | some rest => some (bs ++ rest)
  | _ => none

/-- `base64.StdEncoding.DecodeString`, used by `json.Unmarshal` for `[]byte`; line breaks are skipped, unused trailing bits
are not checked. -/
def b64Decode (cs : List Char) : Option Bytes := b64Groups (cs.filter fun c => c != '\r' && c != '\n')

/-! ## numbers -/

/-- `new(big.Int).SetBytes`: big endian (distance.go:27). -/
def bytesNum (bs : Bytes) : Nat := bs.foldl (fun acc b => 256 * acc + b.toNat) 0

/-- `(*big.Int).Bytes`: big endian, no leading zero byte (nodeid.go:45, cid.go:43); the first argument bounds the number of
bytes. -/
def natBytesAux : Nat → Nat → Bytes
  | 0, _ => []
  | fuel + 1, n => if n = 0 then [] else natBytesAux fuel (n / 256) ++ [UInt8.ofNat (n % 256)]

/-- `(*big.Int).Bytes` of a natural number. -/
def natBytes (n : Nat) : Bytes := natBytesAux n n

/-- `binary.BigEndian.PutUint32`. -/
def be32 (n : Nat) : Bytes :=
  [UInt8.ofNat (n / 16777216), UInt8.ofNat (n / 65536), UInt8.ofNat (n / 256), UInt8.ofNat n]

/-- `binary.BigEndian.PutUint64`. -/
def be64 (n : Nat) : Bytes := be32 (n / 4294967296) ++ be32 n

end FcRetrieval
