/-!
# Specification vocabulary for the configuration of a node
-/

namespace FcRetrieval.Config

/-- The text is the numeral of the number to the base `b`, in digits `0` to `9`. -/
inductive Digits (b : Nat) : List Char → Nat → Prop
  | one (d : Nat) : d < b → d < 10 → Digits b [Nat.digitChar d] d
  | more (s : List Char) (n d : Nat) : Digits b s n → d < b → d < 10 → Digits b (s ++ [Nat.digitChar d]) (n * b + d)

/-- The same, where single underscores may stand between digits. -/
inductive Numeral (b : Nat) : List Char → Nat → Prop
  | one (d : Nat) : d < b → d < 10 → Numeral b [Nat.digitChar d] d
  | more (s : List Char) (n d : Nat) : Numeral b s n → d < b → d < 10 → Numeral b (s ++ [Nat.digitChar d]) (n * b + d)
  | group (s : List Char) (n d : Nat) : Numeral b s n → d < b → d < 10 → Numeral b (s ++ ['_', Nat.digitChar d]) (n * b + d)

/-- Digits, with those of the base sixteen. -/
def hexDigits : List (Char × Nat) :=
  [('0', 0), ('1', 1), ('2', 2), ('3', 3), ('4', 4), ('5', 5), ('6', 6), ('7', 7), ('8', 8), ('9', 9), ('a', 10), ('b', 11), ('c', 12), ('d', 13), ('e', 14), ('f', 15),
    ('A', 10), ('B', 11), ('C', 12), ('D', 13), ('E', 14), ('F', 15)]

/-- The text is the numeral of the number to the base `b`, in digits `0` to `9`, `a` to `f` and `A` to `F`. -/
inductive Based (b : Nat) : List Char → Nat → Prop
  | one (c : Char) (d : Nat) : (c, d) ∈ hexDigits → d < b → Based b [c] d
  | more (s : List Char) (n : Nat) (c : Char) (d : Nat) : Based b s n → (c, d) ∈ hexDigits → d < b → Based b (s ++ [c]) (n * b + d)

/-- What follows a zero that begins a number to another base than ten. -/
def radixes : List (Char × Nat) := [('b', 2), ('B', 2), ('o', 8), ('O', 8), ('x', 16), ('X', 16)]

/-- It does not begin with a superfluous zero. -/
def NoLeadingZero (s : List Char) : Prop := s.head? ≠ some '0' ∨ s = ['0']

/-- Spaces, tabs and the ends of lines. -/
def Blank (s : List Char) : Prop := ∀ c ∈ s, c = ' ' ∨ c = '\t' ∨ c = '\n' ∨ c = '\r'

/-- A character of ASCII that is neither a digit nor an underscore. -/
def Other (c : Char) : Prop := c.toNat < 128 ∧ c ≠ '_' ∧ ∀ d, d < 10 → c ≠ Nat.digitChar d

/-- The text is the whole number in decimal digits, with an optional sign and blanks around it. -/
inductive Written : List Char → Int → Prop
  | plain (pre s post : List Char) (n : Nat) : Blank pre → Numeral 10 s n → NoLeadingZero s → Blank post → Written (pre ++ (s ++ post)) n
  | plus (pre s post : List Char) (n : Nat) : Blank pre → Numeral 10 s n → NoLeadingZero s → Blank post → Written (pre ++ ('+' :: s ++ post)) n
  | minus (pre s post : List Char) (n : Nat) : Blank pre → Numeral 10 s n → NoLeadingZero s → Blank post → Written (pre ++ ('-' :: s ++ post)) (-n)

/-- The text is empty, or its first printed character is in ASCII and neither a digit nor a sign. -/
inductive NoNumber : List Char → Prop
  | blank (s : List Char) : Blank s → NoNumber s
  | word (pre : List Char) (c : Char) (t : List Char) : Blank pre → Other c → 32 < c.toNat → c ≠ '+' → c ≠ '-' → NoNumber (pre ++ c :: t)

/-- Units of time, in nanoseconds. -/
def units : List (List Char × Nat) :=
  [(['n', 's'], 1), (['u', 's'], 1000), (['m', 's'], 1000000), (['s'], 1000000000), (['m'], 60 * 1000000000), (['h'], 60 * 60 * 1000000000)]

/-- A sequence of whole numbers with their units, such as `1h30m`, and the time that it denotes. -/
inductive Times : List Char → Nat → Prop
  | one (s u : List Char) (n k : Nat) : Digits 10 s n → (u, k) ∈ units → Times (s ++ u) (n * k)
  | more (s u t : List Char) (n k d : Nat) : Digits 10 s n → (u, k) ∈ units → Times t d → Times (s ++ u ++ t) (n * k + d)

end FcRetrieval.Config
