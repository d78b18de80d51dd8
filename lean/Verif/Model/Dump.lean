import Verif.Model.Message
import Verif.Model.Ring
/-!
# Model of `common/pkg/fcrmessages/dump.go`: the printout of a message for the log
-/

namespace FcRetrieval.Dump
open FcRetrieval.Ring (Fault)

/-- dump.go:36-40 `dumpState`. -/
structure State where
  width : Nat
  rowIndex : Nat
  maxRowWidth : Nat

/-- dump.go:66-81 `printable`, from the byte with index `i` on: the hexadecimal part and the readable part.  Simplification: text is a list of characters (the block `░` is three
bytes in Go). -/
def printable : Nat → Bytes → List Char × List Char
  | _, [] => ([], [])
  | i, c :: cs =>
    let rest := printable (i + 1) cs
    (hexChar (c.toNat / 16) :: hexChar (c.toNat % 16) :: ' ' :: ((if i % 4 = 3 then [' '] else []) ++ rest.1),
      (if c < 32 ∨ c ≥ 127 then '░' else Char.ofNat c.toNat) :: rest.2)

/-- `fmt`'s `%5d` (dump.go:59) of a number that is not negative. -/
def pad5 (n : Nat) : List Char := List.replicate (5 - (natDigits n).length) ' ' ++ natDigits n

/-- `strings.Repeat(" ", n)` (dump.go:55): a negative count panics. -/
def repeatSpace (n : Int) : Except Fault (List Char) := if n < 0 then .error .panic else .ok (List.replicate n.toNat ' ')

/-- dump.go:48-62, one row: the state afterwards and the line written.  Writing to the `bytes.Buffer` does not fail. -/
def dumpRow (s : State) (row : Bytes) : Except Fault (State × List Char) := do
  let (hex, ascii) := printable 0 row
  let hex ←
    if row.length < s.maxRowWidth then do
      let padding : Int := s.maxRowWidth * 2 + (s.maxRowWidth / 4 : Nat) - row.length * 2 - (row.length / 4 : Nat)
      let spaces ← repeatSpace padding
      pure (hex ++ spaces)
    else pure hex
  let s := { s with maxRowWidth := row.length }
  let line := pad5 (s.rowIndex * s.width) ++ [':', ' '] ++ hex ++ [' ', '|', ' '] ++ ascii ++ ['\n']
  return ({ s with rowIndex := s.rowIndex + 1 }, line)

/-- dump.go:42-64 `dump`, from round `i` on.  The slice `buf[a:b]` is within bounds in every round.  With width 0 the loop would not end (`diverge`). -/
def dump (buf : Bytes) : Nat → Nat → State → Except Fault (List Char)
  | 0, _, _ => .error .diverge
  | fuel + 1, i, s =>
    if i * s.width < buf.length then do
      let a := i * s.width
      let b := if (i + 1) * s.width > buf.length then buf.length else (i + 1) * s.width
      let (s, line) ← dumpRow s ((buf.take b).drop a)
      let rest ← dump buf fuel (i + 1) s
      return line ++ rest
    else .ok []

/-- dump.go:31-36 `dumpMessage`. -/
def dumpMessage (data : Bytes) : Except Fault (List Char) := dump data (data.length + 1) 0 ⟨32, 0, 0⟩

/-- fcrmessage.go:189-195 `DumpMessage`.  `MarshalJSON` of a message does not fail. -/
def dumpMsg (m : Message.Msg) : Except Fault (List Char) := dumpMessage (Message.toBytes m)

end FcRetrieval.Dump
