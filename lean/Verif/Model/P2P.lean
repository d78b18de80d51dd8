import Verif.Model.Tcp
import Verif.Model.Codecs
import Verif.Model.Maps
/-!
# Model of `common/pkg/fcrp2pserver/server.go`, `pool.go` and `common/pkg/fcrrestserver/server.go`
-/

namespace FcRetrieval.P2P
open FcRetrieval.Message (Msg Protocol)
open FcRetrieval.Tcp (Ev Out)

/-! ## registration of handlers -/

/-- server.go:31-42 (and fcrrestserver/server.go:33-39): started or not, and the handlers per listening address and type code. -/
structure Server (η : Type) where
  started : Bool
  addrs : List String
  handlers : List (String × List (Int × η))

/-- server.go:45-67 `NewFCRP2PServer`, fcrrestserver/server.go:42-54 `NewFCRRESTServer`. -/
def new {η : Type} (addrs : List String) : Server η :=
  { started := false, addrs := addrs, handlers := addrs.foldl (fun m a => mset m a []) [] }

/-- server.go:70-80 `AddHandler`, fcrrestserver/server.go:57-67. -/
def addHandler {η : Type} (s : Server η) (addr : String) (type : Int) (h : η) : Server η :=
  if s.started then s
  else
    match mget s.handlers addr with
    | none => s
    | some hs => { s with handlers := mset s.handlers addr (mset hs type h) }

/-- server.go:92-119 `Start`, fcrrestserver/server.go:70-103, when all addresses can be listened on. -/
def start {η : Type} (s : Server η) : Server η × Bool :=
  if s.started then (s, false) else ({ s with started := true }, true)

/-- `s.handlers[addr][type]`. -/
def lookup {η : Type} (s : Server η) (addr : String) (type : Int) : Option η :=
  match mget s.handlers addr with
  | none => none
  | some hs => mget hs type

/-! ## serving a TCP connection -/

/-- A handler gets the message and the connection, writes bytes, leaves the rest of the connection, and says whether to go on. -/
abbrev Handler := Msg → List Ev → Bytes × List Ev × Bool

/-- What one round of the serving loop does. -/
inductive Act where
  | waited
  | called (type : Int) (m : Msg) (written : Bytes) (ok : Bool)
  | invalid (written : Bytes)
  | dropped
  | crashed
  deriving DecidableEq

/-- The reply to an unknown type (tcp_comms.go:100-103 `sendInvalidMessage`). -/
def invalidReply (pr : Protocol) : Bytes :=
  match Wire.encode Codecs.invalidMessageResponse pr () with
  | .ok m => Tcp.frame m
  | _ => []

/-- server.go:120-161 `handleIncomingConnection`, one round of the loop: what is done, and the connection afterwards, or `none` if
it is closed.  Writing is assumed to succeed. -/
def round (pr : Protocol) (hs : Int → Option Handler) (conn : List Ev) : Act × Option (List Ev) :=
  match Tcp.readMsg conn with
  | (.timeout, c) => (.waited, some c)
  | (.eof, _) => (.dropped, none)
  | (.bad, _) => (.dropped, none)
  | (.crash, _) => (.crashed, none)
  | (.msg m, c) =>
    match hs m.type with
    | some h =>
      match h m c with
      | (w, c', true) => (.called m.type m w true, some c')
      | (w, _, false) => (.called m.type m w false, none)
    | none => (.invalid (invalidReply pr), some c)

/-- server.go:129-160: `n` rounds, or fewer if the connection is closed. -/
def serve (pr : Protocol) (hs : Int → Option Handler) : Nat → List Ev → List Act
  | 0, _ => []
  | n + 1, conn =>
    match round pr hs conn with
    | (a, none) => [a]
    | (a, some c) => a :: serve pr hs n c

/-! ## HTTP -/

/-- Outcome of a request: the handler for the type was called with the message, or the status 400. -/
inductive Routed (η : Type) where
  | handled (h : η) (m : Msg)
  | badRequest
  | crashed

/-- fcrrestserver/server.go:104-135 `msgRouter`, for a body that could be read. -/
def route {η : Type} (s : Server η) (addr : String) (body : Bytes) : Routed η :=
  if body.length = 0 then .badRequest
  else
    match Message.fromBytes body with
    | .err => .badRequest
    | .panic => .crashed
    | .ok m =>
      match lookup s addr m.type with
      | some h => .handled h m
      | none => .badRequest

end FcRetrieval.P2P
