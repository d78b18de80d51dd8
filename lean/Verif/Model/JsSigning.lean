import Verif.Model.ClientJs
/-!
# Model of what the JavaScript client signs, and of the key versions in its signatures

`client-js/src/fcrcrypto`.  `none` is an exception.
-/

namespace FcRetrieval.Js
open FcRetrieval.Crypto (Prims)

/-! ## `Number(text)` -/

/-- A number of JavaScript: `dec neg m e` is the one next to `± m · 10^e`. -/
inductive JsNum where
  | nan
  | inf (neg : Bool)
  | dec (neg : Bool) (m : Nat) (e : Int)
  deriving DecidableEq

/-- A decimal digit. -/
def isDec (c : Char) : Bool := '0' ≤ c && c ≤ '9'

/-- The value of decimal digits. -/
def decVal (l : List Char) : Nat := l.foldl (fun n c => 10 * n + (c.toNat - 48)) 0

/-- Without white space at both ends. -/
def trim (s : List Char) : List Char := ((s.dropWhile isSpace).reverse.dropWhile isSpace).reverse

/-- Nothing but digits, and at least one. -/
def allDigits (y : List Char) : Option Nat := if y = [] || !y.all isDec then none else some (decVal y)

/-- `ExponentPart`, or nothing. -/
def exponent : List Char → Option Int
  | [] => some 0
  | c :: x =>
    if c ≠ 'e' && c ≠ 'E' then none
    else match x with
      | '-' :: y => (allDigits y).map fun n : Nat => -(n : Int)
      | '+' :: y => (allDigits y).map fun n : Nat => (n : Int)
      | y => (allDigits y).map fun n : Nat => (n : Int)

/-- The digits after a point, and what is left. -/
def fraction : List Char → List Char × List Char
  | '.' :: r => (r.takeWhile isDec, r.dropWhile isDec)
  | r => ([], r)

/-- `StrUnsignedDecimalLiteral` without `Infinity`: mantissa and exponent. -/
def unsignedDecimal (s : List Char) : Option (Nat × Int) :=
  let a := s.takeWhile isDec
  let f := fraction (s.dropWhile isDec)
  if a = [] && f.1 = [] then none
  else (exponent f.2).map fun e => (decVal (a ++ f.1), e - f.1.length)

/-- `StrUnsignedDecimalLiteral` after its sign. -/
def signedNumber (neg : Bool) (s : List Char) : JsNum :=
  if s = "Infinity".toList then .inf neg
  else match unsignedDecimal s with
    | none => .nan
    | some (m, e) => .dec neg m e

/-- Digits of another radix, all of them. -/
def radixNumber (radix : Nat) (s : List Char) : JsNum :=
  if s = [] then .nan
  else match s.foldlM (fun n c => (hexVal c).bind fun d => if d < radix then some (radix * n + d) else none) 0 with
    | none => .nan
    | some n => .dec false n 0

/-- `Number(text)` (ECMAScript, `StringToNumber`). -/
def toNumber (s : List Char) : JsNum :=
  match trim s with
  | [] => .dec false 0 0
  | '0' :: 'x' :: r | '0' :: 'X' :: r => radixNumber 16 r
  | '0' :: 'o' :: r | '0' :: 'O' :: r => radixNumber 8 r
  | '0' :: 'b' :: r | '0' :: 'B' :: r => radixNumber 2 r
  | '-' :: r => signedNumber true r
  | '+' :: r => signedNumber false r
  | r => signedNumber false r

/-! ## fcrcrypto/key_version.class.ts -/

/-- fcrcrypto/key_version.class.ts:25-33 `encodeKeyVersionAsBytes`: `>>` shifts the number modulo 2^32, an element of a `Uint8Array` keeps the lowest byte. -/
def encodeKeyVersion (k : Int) : Bytes :=
  [UInt8.ofNat (k / 16777216 % 256).toNat, UInt8.ofNat (k / 65536 % 256).toNat, UInt8.ofNat (k / 256 % 256).toNat, UInt8.ofNat (k % 256).toNat]

/-- fcrcrypto/encode.helper.ts:42-47 `array2str`. -/
def array2str (b : Bytes) : List Char := b.map fun x => Char.ofNat x.toNat

/-- fcrcrypto/key_version.class.ts:15-23 `decodeKeyVersionFromBytes`. -/
def decodeKeyVersion (b : Bytes) : Option JsNum := if b.length < 4 then none else some (toNumber (array2str b))

/-- fcrcrypto/msg_signing.ts:75-78 `extractKeyVersionFromMessage`. -/
def extractKeyVersion (signature : List Char) : Option JsNum := decodeKeyVersion ((hexArray signature).take 4)

/-! ## fcrcrypto/msg_signing.ts -/

/-- fcrcrypto/msg_signing.ts:80-87 `getToBeSigned`, before `Buffer.from`: the values one after the other, in the order of `Object.keys`. -/
def getToBeSigned (msg : List (String × Json)) : List Char := msg.flatMap fun kv => toText kv.2

/-- fcrcrypto/msg_signing.ts:22-32, secp256k1.service.ts:15-22 `decodePrivateKey`. -/
def privateKey (s : List Char) : Option Bytes :=
  match hexArray s with
  | 1 :: r => if r.length = 32 then some r else none
  | _ => none

/-- fcrcrypto/msg_signing.ts:13-19 `signMessage` with a key that `privateKey` has made.  The library signs as Go's does, without the recovery identifier. -/
def signMessage (P : Prims) (pKey : Bytes) (keyVersion : Int) (msg : List (String × Json)) : Option (List Char) :=
  (P.sign (P.hash (utf8Bytes (getToBeSigned msg))) pKey).map fun raw => hexEncode (encodeKeyVersion keyVersion ++ raw.take 64 ++ [0])

end FcRetrieval.Js
