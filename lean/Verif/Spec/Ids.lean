import Verif.Model.Ids
import Verif.Spec.Ring
/-!
# Specification vocabulary for identifiers

An identifier is 32 bytes; its position on the ring is the number it spells, high byte first.
-/

namespace FcRetrieval.Ids

/-- The digits of `ToString`. -/
def lowerHexDigits : List Char := "0123456789abcdef".toList

/-- What the constructors promise to build: 32 bytes. -/
def Proper (id : Id) : Prop := id.length = 32

/-- The position of an identifier on the ring: its bytes as a number in base 256, high byte first. -/
def position : Bytes → Nat
  | [] => 0
  | b :: bs => b.toNat * 256 ^ bs.length + position bs

/-- A hex string the decoder should take: an even number of digits of either case. -/
def HexText (s : List Char) : Prop := s.length % 2 = 0 ∧ ∀ c ∈ s, c.toLower ∈ lowerHexDigits

/-- A JSON value that carries the bytes `b`: base64 text, or an array of byte numbers in which `null` stands for 0. -/
def Carries (j : Json) (b : Bytes) : Prop :=
  (∃ s, j = .str s ∧ b64Decode s = some b) ∨
  (∃ xs, j = .arr xs ∧ xs.length = b.length ∧
    ∀ i (h : i < b.length), xs[i]? = some (.num b[i].toNat) ∨ (xs[i]? = some .null ∧ b[i] = 0)) ∨
  (j = .null ∧ b = [])

end FcRetrieval.Ids
