import Verif.Model.Tcp
import Verif.Spec.Message
/-!
# Specification vocabulary for messages over TCP
-/

namespace FcRetrieval.Tcp

/-- The bytes of a list of chunks. -/
def bytesOf : List Ev → Bytes
  | [] => []
  | .data x xs :: r => x :: xs ++ bytesOf r
  | .timeout :: r => bytesOf r

/-- The events are chunks only, no deadline passes. -/
def AllData (evs : List Ev) : Prop := .timeout ∉ evs

/-- These bytes arrive, in some chunks, without a deadline passing. -/
def Arrives (evs : List Ev) (b : Bytes) : Prop := AllData evs ∧ bytesOf evs = b

/-- The bytes that arrive before the first passing of the deadline or the end. -/
def firstBytes : List Ev → Bytes
  | [] => []
  | .data x xs :: r => x :: xs ++ firstBytes r
  | .timeout :: _ => []

end FcRetrieval.Tcp
