import Verif.Model.P2P
import Verif.Spec.Tcp
/-!
# Specification vocabulary for the servers
-/

namespace FcRetrieval.P2P
open FcRetrieval.Message (Msg Protocol)
open FcRetrieval.Tcp (Ev)

/-- The calls that set up a server. -/
inductive Setup (η : Type) where
  | add (addr : String) (type : Int) (h : η)
  | start

/-- One call. -/
def perform {η : Type} (s : Server η) : Setup η → Server η
  | .add a t h => addHandler s a t h
  | .start => (start s).1

/-- The server after these calls, made on a new server for these addresses. -/
def setup {η : Type} (addrs : List String) (ops : List (Setup η)) : Server η := ops.foldl perform (new addrs)

/-- The handlers added for the address and the type before the first start, in order. -/
def added {η : Type} (addr : String) (type : Int) : List (Setup η) → List η
  | [] => []
  | .start :: _ => []
  | .add a t h :: r => if a = addr ∧ t = type then h :: added addr type r else added addr type r

/-- The handler in charge: the last one added before the server was started, for an address it listens on. -/
def inCharge {η : Type} (addrs : List String) (ops : List (Setup η)) (addr : String) (type : Int) : Option η :=
  if addr ∈ addrs then (added addr type ops).getLast? else none

/-- What the server is expected to do with a message: call the handler in charge, or answer that the message is invalid. -/
def expected (pr : Protocol) (hs : Int → Option (Msg → Bytes)) (m : Msg) : Act :=
  match hs m.type with
  | some h => .called m.type m (h m) true
  | none => .invalid (invalidReply pr)

/-- A handler that only writes, and succeeds. -/
def writes (h : Msg → Bytes) : Handler := fun m c => (h m, c, true)

end FcRetrieval.P2P
