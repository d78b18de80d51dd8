import Verif.Model.Json
import Verif.Model.Message
/-!
# The grammar of JSON texts

RFC 8259, for values whose numbers are integers without exponent.  `lenient` adds what Go accepts beyond it: a `\u` escape of one half of a surrogate pair, for
U+FFFD.
-/

namespace FcRetrieval.JsonGrammar

/-- White space. -/
def White (s : List Char) : Prop := ∀ c ∈ s, c = ' ' ∨ c = '\t' ∨ c = '\n' ∨ c = '\r'

/-- Hexadecimal digits. -/
def hexDigits : List (Char × Nat) :=
  [('0', 0), ('1', 1), ('2', 2), ('3', 3), ('4', 4), ('5', 5), ('6', 6), ('7', 7), ('8', 8), ('9', 9), ('a', 10), ('b', 11), ('c', 12), ('d', 13), ('e', 14), ('f', 15),
    ('A', 10), ('B', 11), ('C', 12), ('D', 13), ('E', 14), ('F', 15)]

/-- The text is four hexadecimal digits. -/
inductive Hex4 : List Char → Nat → Prop
  | mk (a b c d : Char) (w x y z : Nat) : (a, w) ∈ hexDigits → (b, x) ∈ hexDigits → (c, y) ∈ hexDigits → (d, z) ∈ hexDigits →
      Hex4 [a, b, c, d] (((w * 16 + x) * 16 + y) * 16 + z)

/-- The escapes of one letter. -/
def escapes : List (Char × Char) :=
  [('"', '"'), ('\\', '\\'), ('/', '/'), ('b', Char.ofNat 8), ('f', Char.ofNat 12), ('n', '\n'), ('r', '\r'), ('t', '\t')]

/-- How a character can be written inside a string. -/
inductive CharText (lenient : Bool) : Char → List Char → Prop
  | plain (c : Char) : 32 ≤ c.toNat → c ≠ '"' → c ≠ '\\' → CharText lenient c [c]
  | escape (e c : Char) : (e, c) ∈ escapes → CharText lenient c ['\\', e]
  | code (h : List Char) (n : Nat) : Hex4 h n → n < 0xD800 ∨ 0xE000 ≤ n → CharText lenient (Char.ofNat n) ('\\' :: 'u' :: h)
  | pair (h l : List Char) (hi lo : Nat) : Hex4 h (0xD800 + hi) → Hex4 l (0xDC00 + lo) → hi < 0x400 → lo < 0x400 →
      CharText lenient (Char.ofNat (0x10000 + hi * 0x400 + lo)) ('\\' :: 'u' :: h ++ '\\' :: 'u' :: l)
  | lone (h : List Char) (n : Nat) : lenient = true → Hex4 h n → 0xD800 ≤ n → n < 0xE000 → CharText lenient (Char.ofNat 0xFFFD) ('\\' :: 'u' :: h)

/-- How a string can be written, without its quotes. -/
inductive StrText (lenient : Bool) : List Char → List Char → Prop
  | nil : StrText lenient [] []
  | cons (c : Char) (t : List Char) (cs s : List Char) : CharText lenient c t → StrText lenient cs s → StrText lenient (c :: cs) (t ++ s)

/-- The decimal numeral of a number, without leading zeros. -/
inductive NatText : Nat → List Char → Prop
  | digit (d : Nat) : d < 10 → NatText d [Nat.digitChar d]
  | more (n d : Nat) (s : List Char) : NatText n s → 0 < n → d < 10 → NatText (10 * n + d) (s ++ [Nat.digitChar d])

/-- What is written: a value, the elements of an array (with the commas between them), or the members of an object. -/
inductive Part where
  | value (j : Json)
  | elems (xs : List Json)
  | members (fs : List (String × Json))

/-- How it can be written.  White space may stand around every value, member name and separator. -/
inductive Text (lenient : Bool) : Part → List Char → Prop
  | null : Text lenient (.value .null) ['n', 'u', 'l', 'l']
  | true : Text lenient (.value (.bool true)) ['t', 'r', 'u', 'e']
  | false : Text lenient (.value (.bool false)) ['f', 'a', 'l', 's', 'e']
  | nat (n : Nat) (s : List Char) : NatText n s → Text lenient (.value (.num n)) s
  | minus (n : Nat) (s : List Char) : NatText n s → Text lenient (.value (.num (-(n : Int)))) ('-' :: s)
  | str (t s : List Char) : StrText lenient t s → Text lenient (.value (.str t)) ('"' :: s ++ ['"'])
  | noElems (w : List Char) : White w → Text lenient (.value (.arr [])) ('[' :: w ++ [']'])
  | arr (xs : List Json) (s : List Char) : Text lenient (.elems xs) s → Text lenient (.value (.arr xs)) ('[' :: s ++ [']'])
  | noMembers (w : List Char) : White w → Text lenient (.value (.obj [])) ('{' :: w ++ ['}'])
  | obj (fs : List (String × Json)) (s : List Char) : Text lenient (.members fs) s → Text lenient (.value (.obj fs)) ('{' :: s ++ ['}'])
  | elem (w w' : List Char) (x : Json) (s : List Char) : White w → White w' → Text lenient (.value x) s → Text lenient (.elems [x]) (w ++ s ++ w')
  | elemMore (w w' : List Char) (x : Json) (s : List Char) (xs : List Json) (t : List Char) : White w → White w' → Text lenient (.value x) s →
      Text lenient (.elems xs) t → Text lenient (.elems (x :: xs)) (w ++ s ++ w' ++ ',' :: t)
  | member (w1 w2 w3 w4 k k' : List Char) (v : Json) (s : List Char) : White w1 → White w2 → White w3 → White w4 → StrText lenient k k' → Text lenient (.value v) s →
      Text lenient (.members [(String.ofList k, v)]) (w1 ++ '"' :: k' ++ '"' :: w2 ++ ':' :: w3 ++ s ++ w4)
  | memberMore (w1 w2 w3 w4 k k' : List Char) (v : Json) (s : List Char) (fs : List (String × Json)) (t : List Char) : White w1 → White w2 → White w3 → White w4 →
      StrText lenient k k' → Text lenient (.value v) s → Text lenient (.members fs) t →
      Text lenient (.members ((String.ofList k, v) :: fs)) (w1 ++ '"' :: k' ++ '"' :: w2 ++ ':' :: w3 ++ s ++ w4 ++ ',' :: t)

/-- A whole text: a value with white space around it. -/
def Whole (lenient : Bool) (j : Json) (s : List Char) : Prop := ∃ w t w', s = w ++ t ++ w' ∧ White w ∧ White w' ∧ Text lenient (.value j) t

/-- The members a message is written with. -/
def messageMembers (m : Message.Msg) : List (String × Json) :=
  [("message_type", .num m.type), ("protocol_version", .num m.version), ("protocol_supported", Message.intsJson m.supported),
    ("message_body", jsonBytes m.body), ("message_signature", .str m.signature)]

end FcRetrieval.JsonGrammar
