import Verif.Spec.Config
/-!
# Specification vocabulary for durations with decimal fractions
-/

namespace FcRetrieval.Config

/-- A number, whole or with a decimal fraction, and how much it is of a unit of `k` nanoseconds.  The fraction has no more digits
than the unit can be divided by. -/
inductive Amount (k : Nat) : List Char → Nat → Prop
  | whole (s : List Char) (n : Nat) : Digits 10 s n → Amount k s (n * k)
  | decimal (s f : List Char) (n m : Nat) : Digits 10 s n → Digits 10 f m → 10 ^ f.length ∣ k →
      Amount k (s ++ '.' :: f) (n * k + m * (k / 10 ^ f.length))
  | fraction (f : List Char) (m : Nat) : Digits 10 f m → 10 ^ f.length ∣ k → Amount k ('.' :: f) (m * (k / 10 ^ f.length))

/-- A sequence of such numbers with their units, such as `1.5s` or `1h0.25m`, and the time that it denotes. -/
inductive DecimalTimes : List Char → Nat → Prop
  | one (s u : List Char) (n k : Nat) : (u, k) ∈ units → Amount k s n → DecimalTimes (s ++ u) n
  | more (s u t : List Char) (n k d : Nat) : (u, k) ∈ units → Amount k s n → DecimalTimes t d → DecimalTimes (s ++ u ++ t) (n + d)

/-- Arithmetic in floating point is exact where IEEE 754 says so for `f * (unit / 10^n)`: all of the numbers are whole and
smaller than 2^53. -/
def FloatExact (frac : Nat → Nat → Nat → Nat) : Prop :=
  ∀ f n unit, 10 ^ n ∣ unit → unit < 2 ^ 53 → f < 2 ^ 53 → f * (unit / 10 ^ n) < 2 ^ 53 → frac f n unit = f * (unit / 10 ^ n)

end FcRetrieval.Config
