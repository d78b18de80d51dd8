import Verif.Model.Json
/-!
# JSON text

`encoding/json` `Marshal` (compact form, HTML escaping as by default) and the parsing half of `Unmarshal`, on texts as lists
of characters.  Library behaviour, from its documentation and the JSON grammar.  Simplifications: integers only (a
fraction or exponent is a syntax error here; Go reports an error when such a number is decoded into an integer); no nesting
limit (Go: 10000 levels).
-/

namespace FcRetrieval

/-! ## writing -/

/-- Decimal digits, most significant first; the first argument bounds their number. -/
def natDigitsAux : Nat → Nat → List Char
  | 0, n => [Char.ofNat (48 + n % 10)]
  | fuel + 1, n => if n < 10 then [Char.ofNat (48 + n)] else natDigitsAux fuel (n / 10) ++ [Char.ofNat (48 + n % 10)]

/-- `strconv.AppendUint(_, n, 10)`. -/
def natDigits (n : Nat) : List Char := natDigitsAux n n

/-- `strconv.AppendInt(_, n, 10)`. -/
def intDigits (n : Int) : List Char := if n < 0 then '-' :: natDigits n.natAbs else natDigits n.natAbs

/-- Four hex digits. -/
def hex4Digits (n : Nat) : List Char :=
  [hexChar (n / 4096 % 16), hexChar (n / 256 % 16), hexChar (n / 16 % 16), hexChar (n % 16)]

/-- One character of a string, escaped as `json.Marshal` does. -/
def escChar (c : Char) : List Char :=
  if c = '"' then ['\\', '"']
  else if c = '\\' then ['\\', '\\']
  else if c = '\n' then ['\\', 'n']
  else if c = '\r' then ['\\', 'r']
  else if c = '\t' then ['\\', 't']
  else if c.toNat < 32 ∨ c = '<' ∨ c = '>' ∨ c = '&' ∨ c.toNat = 0x2028 ∨ c.toNat = 0x2029 then
    '\\' :: 'u' :: hex4Digits c.toNat
  else [c]

/-- A string without its quotes. -/
def escStr : List Char → List Char
  | [] => []
  | c :: cs => escChar c ++ escStr cs

mutual
/-- `json.Marshal`. -/
def render : Json → List Char
  | .null => ['n', 'u', 'l', 'l']
  | .bool true => ['t', 'r', 'u', 'e']
  | .bool false => ['f', 'a', 'l', 's', 'e']
  | .num n => intDigits n
  | .str s => '"' :: (escStr s ++ ['"'])
  | .arr [] => ['[', ']']
  | .arr (x :: xs) => '[' :: (render x ++ renderElems xs)
  | .obj [] => ['{', '}']
  | .obj (f :: fs) => '{' :: (renderField f ++ renderFields fs)
/-- The rest of an array after its first element. -/
def renderElems : List Json → List Char
  | [] => [']']
  | x :: xs => ',' :: (render x ++ renderElems xs)
/-- One member of an object. -/
def renderField : String × Json → List Char
  | (k, v) => '"' :: (escStr k.toList ++ '"' :: ':' :: render v)
/-- The rest of an object after its first member. -/
def renderFields : List (String × Json) → List Char
  | [] => ['}']
  | f :: fs => ',' :: (renderField f ++ renderFields fs)
end

/-! ## reading -/

/-- JSON white space. -/
def isWs (c : Char) : Bool := c == ' ' || c == '\t' || c == '\n' || c == '\r'

/-- Skip white space. -/
def skipWs : List Char → List Char
  | [] => []
  | c :: cs => if isWs c then skipWs cs else c :: cs

/-- A decimal digit. -/
def isDigitC (c : Char) : Bool := '0' ≤ c && c ≤ '9'

/-- Digits to a number, with what follows. -/
def readDigits (acc : Nat) : List Char → Nat × List Char
  | [] => (acc, [])
  | c :: cs => if isDigitC c then readDigits (10 * acc + (c.toNat - 48)) cs else (acc, c :: cs)

/-- An unsigned number: a single zero, or digits that do not start with zero. -/
def readNat : List Char → Option (Nat × List Char)
  | [] => none
  | c :: cs => if c = '0' then some (0, cs) else if isDigitC c then some (readDigits 0 (c :: cs)) else none

/-- Four hex digits of a `\u` escape. -/
def hex4Val (a b c d : Char) : Option Nat :=
  match hexVal a, hexVal b, hexVal c, hexVal d with
  | some w, some x, some y, some z => some (w * 4096 + x * 256 + y * 16 + z)
  | _, _, _, _ => none

/-- The character of a one-letter escape. -/
def unescChar (c : Char) : Option Char :=
  if c = '"' ∨ c = '\\' ∨ c = '/' then some c
  else if c = 'b' then some (Char.ofNat 8)
  else if c = 'f' then some (Char.ofNat 12)
  else if c = 'n' then some '\n'
  else if c = 'r' then some '\r'
  else if c = 't' then some '\t'
  else none

/-- A `\u` escape has been read with code `n`; a high surrogate joins with a following low one, a lone one becomes
U+FFFD. -/
def surrogate (n : Nat) (r : List Char) : Option (Char × List Char) :=
  if 0xD800 ≤ n ∧ n ≤ 0xDFFF then
    match r with
    | '\\' :: 'u' :: e :: f :: g :: h :: r' =>
      match hex4Val e f g h with
      | none => none
      | some m =>
        if n ≤ 0xDBFF ∧ 0xDC00 ≤ m ∧ m ≤ 0xDFFF then
          some (Char.ofNat (0x10000 + (n - 0xD800) * 0x400 + (m - 0xDC00)), r')
        else some (Char.ofNat 0xFFFD, r)
    | _ => some (Char.ofNat 0xFFFD, r)
  else some (Char.ofNat n, r)

/-- After a backslash. -/
def readEscape : List Char → Option (Char × List Char)
  | 'u' :: a :: b :: c :: d :: r =>
    match hex4Val a b c d with
    | none => none
    | some n => surrogate n r
  | c :: r =>
    match unescChar c with
    | none => none
    | some x => some (x, r)
  | [] => none

/-- One character of a string; `none` inside the result is the closing quote. -/
def readChar : List Char → Option (Option Char × List Char)
  | [] => none
  | c :: r =>
    if c = '"' then some (none, r)
    else if c = '\\' then
      match readEscape r with
      | none => none
      | some (x, r') => some (some x, r')
    else if c.toNat < 32 then none
    else some (some c, r)

/-- A string after its opening quote. -/
def readStr : Nat → List Char → Option (List Char × List Char)
  | 0, _ => none
  | fuel + 1, s =>
    match readChar s with
    | none => none
    | some (none, r) => some ([], r)
    | some (some c, r) =>
      match readStr fuel r with
      | none => none
      | some (cs, r') => some (c :: cs, r')

/-- A string with both quotes. -/
def readQuoted : List Char → Option (List Char × List Char)
  | '"' :: r => readStr (r.length + 1) r
  | _ => none

mutual
/-- A value. -/
def readValue : Nat → List Char → Option (Json × List Char)
  | 0, _ => none
  | fuel + 1, s =>
    match skipWs s with
    | [] => none
    | c :: r =>
      if c = '"' then
        match readQuoted (c :: r) with
        | none => none
        | some (t, r') => some (.str t, r')
      else if c = '[' then
        match skipWs r with
        | ']' :: r' => some (.arr [], r')
        | r' =>
          match readElems fuel r' with
          | none => none
          | some (xs, r'') => some (.arr xs, r'')
      else if c = '{' then
        match skipWs r with
        | '}' :: r' => some (.obj [], r')
        | r' =>
          match readFields fuel r' with
          | none => none
          | some (fs, r'') => some (.obj fs, r'')
      else if c = '-' then
        match readNat r with
        | none => none
        | some (n, r') => some (.num (-(n : Int)), r')
      else if isDigitC c then
        match readNat (c :: r) with
        | none => none
        | some (n, r') => some (.num n, r')
      else
        match c :: r with
        | 'n' :: 'u' :: 'l' :: 'l' :: r' => some (.null, r')
        | 't' :: 'r' :: 'u' :: 'e' :: r' => some (.bool true, r')
        | 'f' :: 'a' :: 'l' :: 's' :: 'e' :: r' => some (.bool false, r')
        | _ => none
/-- The elements of a non-empty array, up to and with the bracket. -/
def readElems : Nat → List Char → Option (List Json × List Char)
  | 0, _ => none
  | fuel + 1, s =>
    match readValue fuel s with
    | none => none
    | some (x, r) =>
      match skipWs r with
      | ',' :: r' =>
        match readElems fuel r' with
        | none => none
        | some (xs, r'') => some (x :: xs, r'')
      | ']' :: r' => some ([x], r')
      | _ => none
/-- The members of a non-empty object, up to and with the brace. -/
def readFields : Nat → List Char → Option (List (String × Json) × List Char)
  | 0, _ => none
  | fuel + 1, s =>
    match readQuoted (skipWs s) with
    | none => none
    | some (k, r) =>
      match skipWs r with
      | ':' :: r1 =>
        match readValue fuel r1 with
        | none => none
        | some (v, r2) =>
          match skipWs r2 with
          | ',' :: r3 =>
            match readFields fuel r3 with
            | none => none
            | some (fs, r4) => some ((String.ofList k, v) :: fs, r4)
          | '}' :: r3 => some ([(String.ofList k, v)], r3)
          | _ => none
      | _ => none
end

/-- A whole text: one value and nothing but white space after it. -/
def parseJson (s : List Char) : Option Json :=
  match readValue (2 * s.length + 2) s with
  | none => none
  | some (j, r) => if skipWs r = [] then some j else none

/-! ## text as bytes -/

/-- The bytes of an ASCII text (the texts written here are ASCII unless a string carries other characters). -/
def asciiBytes (s : List Char) : Bytes := s.map fun c => UInt8.ofNat c.toNat

/-- Bytes as text, one character per byte.  Only used for texts whose strings are base64, where a byte above 127 is an error
under any reading. -/
def asciiText (b : Bytes) : List Char := b.map fun x => Char.ofNat x.toNat

/-- The UTF-8 bytes of a text. -/
def utf8Bytes (s : List Char) : Bytes := s.flatMap String.utf8EncodeChar

/-- The text of UTF-8 bytes.  Go replaces invalid sequences inside JSON strings by U+FFFD; here they are an error. -/
def utf8Text (b : Bytes) : Option (List Char) := (b.toByteArray.utf8Decode?).map Array.toList

end FcRetrieval
