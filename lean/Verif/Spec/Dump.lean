import Verif.Model.Bytes
/-!
# Specification vocabulary: reading a printout of bytes
-/

namespace FcRetrieval.Dump

/-- The number that the digits of a text stand for. -/
def number (s : List Char) : Nat := (s.filter Char.isDigit).foldl (fun a c => 10 * a + (c.toNat - 48)) 0

/-- The value of a hexadecimal digit, written small. -/
def nibble (c : Char) : Nat := "0123456789abcdef".toList.idxOf c

/-- The bytes written in hexadecimal, two digits each, with any spaces between them. -/
def bytesOf : List Char → Bytes
  | [] => []
  | ' ' :: cs => bytesOf cs
  | [_] => []
  | c :: d :: cs => UInt8.ofNat (16 * nibble c + nibble d) :: bytesOf cs

/-- How a byte shows: a printing ASCII character as itself, everything else as a block. -/
def shown (b : UInt8) : Char := if 32 ≤ b.toNat ∧ b.toNat ≤ 126 then Char.ofNat b.toNat else '░'

/-- The lines of a text. -/
def linesOf : List Char → List (List Char)
  | [] => []
  | c :: cs =>
    if c = '\n' then [] :: linesOf cs
    else
      match linesOf cs with
      | [] => [[c]]
      | l :: ls => (c :: l) :: ls

/-- The bytes on a line: what stands between the first colon and the first bar after it. -/
def lineBytes (l : List Char) : Bytes := bytesOf ((l.dropWhile (· ≠ ':')).tail.takeWhile (· ≠ '|'))

/-- The bytes of a whole printout. -/
def readBack (t : List Char) : Bytes := (linesOf t).flatMap lineBytes

/-- Line `i` of the printout of `b`: the offset, a colon, the row of 32 bytes in hexadecimal, a bar, and the row as characters. -/
def IsLine (b : Bytes) (i : Nat) (line : List Char) : Prop :=
  ∃ off hex, line = off ++ [':', ' '] ++ hex ++ ['|', ' '] ++ ((b.drop (32 * i)).take 32).map shown ∧
    (∀ c ∈ off, c = ' ' ∨ c.isDigit = true) ∧ number off = 32 * i ∧ 5 ≤ off.length ∧
    (∀ c ∈ hex, c = ' ' ∨ c ∈ "0123456789abcdef".toList) ∧ bytesOf hex = (b.drop (32 * i)).take 32

end FcRetrieval.Dump
