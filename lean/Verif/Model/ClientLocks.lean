import Verif.Model.PayLocks
/-!
# The lock operations of the client library

`client/pkg/fcrclient/filecoin_retrieval_client.go`: the lists of the gateways in use and of the active gateways have a lock each, the payment
manager is made under a third one, the payment manager has its own (`Model/PayLocks`), and the communicator of the library
(`client/pkg/api/clientapi/client_api.go`) has one mutex, which is held over the whole exchange with a gateway or provider
(`common/pkg/request/request.go:99-101`).  For each call, the sequence of its lock operations, for each way through it; deferred releases run
on every return.  What is asked of the register is `work`: its own locks are the subject of `Model/RegLocks`, and no lock of the client is
taken under them.
-/

namespace FcRetrieval.ClientLocks
open FcRetrieval.RWLock

/-- filecoin_retrieval_client.go:44-62: the locks of the two lists, of the making of the payment manager, of the payment manager; request.go:37-41:
the mutex of the communicator. -/
inductive Lock where
  | use
  | active
  | making
  | pay (l : PayLocks.Lock)
  | wire
  deriving DecidableEq

/-- The same operation, on a lock of the payment manager of this client. -/
def payOp : Op PayLocks.Lock → Op Lock
  | .rlock l => .rlock (.pay l)
  | .runlock l => .runlock (.pay l)
  | .lock l => .lock (.pay l)
  | .unlock l => .unlock (.pay l)
  | .work => .work

/-- One exchange with a gateway or provider.  request.go:99-134 `SendMessage`. -/
def exchange : List (Op Lock) := [.lock .wire, .work, .unlock .wire]

/-- What a search does while it holds the list of active gateways: it talks to the gateway, it makes the payment manager
(filecoin_retrieval_client.go:78-94), it pays and tops up. -/
inductive Step where
  | talk
  | make
  | payUnknown
  | payKnown (recipient : Nat)
  | topupNew
  | topupKnown (recipient : Nat)
  deriving DecidableEq

/-- The lock operations of these steps. -/
def Step.ops : Step → List (Op Lock)
  | .talk => exchange
  | .make => [.lock .making, .work, .unlock .making]
  | .payUnknown => PayLocks.payUnknown.map payOp
  | .payKnown r => (PayLocks.payKnown r).map payOp
  | .topupNew => PayLocks.topupNew.map payOp
  | .topupKnown r => (PayLocks.topupKnown r).map payOp

/-- What happens to one gateway that is to be used: it is known already, the register does not know it, or it is entered. -/
inductive AddWay where
  | known
  | unknown
  | entered
  deriving DecidableEq

/-- filecoin_retrieval_client.go:128-153. -/
def AddWay.ops : AddWay → List (Op Lock)
  | .known | .unknown => [.rlock .use, .work, .runlock .use, .work]
  | .entered => [.rlock .use, .work, .runlock .use, .work, .lock .use, .work, .unlock .use]

/-- What happens to one gateway that is to be activated: it is active already, it is not in use, it does not establish the connection, or it is
entered. -/
inductive ActWay where
  | known
  | notInUse
  | fails
  | entered
  deriving DecidableEq

/-- filecoin_retrieval_client.go:239-241. -/
def enter : List (Op Lock) := [.lock .active, .work, .unlock .active]

/-- filecoin_retrieval_client.go:215-243: nothing is held over the exchange but the mutex of the communicator. -/
def ActWay.ops : ActWay → List (Op Lock)
  | .known => [.rlock .active, .work, .runlock .active]
  | .notInUse => [.rlock .active, .work, .runlock .active, .rlock .use, .work, .runlock .use]
  | .fails => [.rlock .active, .work, .runlock .active, .rlock .use, .work, .runlock .use, .work] ++ exchange
  | .entered => [.rlock .active, .work, .runlock .active, .rlock .use, .work, .runlock .use, .work] ++ exchange ++ enter

/-- The calls of the library, by the way they take. -/
inductive Call where
  | findGateways
  | add (ways : List AddWay)
  | remove (present : Nat)
  | removeAll
  | inUse
  | activate (ways : List ActWay)
  | deactivate
  | activeOnes
  | search (steps : List Step)
  | proof
  | proofRefused

/-- The lock operations of a call.
`findGateways`: `FindGateways` (98-123).  `add`: `AddGatewaysToUse` (126-155).  `remove`: `RemoveGatewaysToUse` (159-176), of which `present` are in
use.  `removeAll`: `RemoveAllGatewaysToUse` (180-191).  `inUse`: `GetGatewaysToUse` (194-209).  `activate`: `AddActiveGateways` (213-245).
`deactivate`: `RemoveActiveGateways` (248-262), `RemoveAllActiveGateways` (265-273).  `activeOnes`: `GetActiveGateways` (276-291).  `search`:
`FindOffersStandardDiscovery` (294-340), `FindOffersDHTDiscovery` (343-427), `FindOffersDHTDiscoveryV2` (431-563), `FindOffersStandardDiscoveryV2`
(647-766): the list of active gateways is held for reading from the first line to the return; `[]` for a gateway that is not active; which payments
and exchanges there are, and in which order, is left open, so that more is possible than in the program.  `proof`: `FindDHTOfferAck` (566-644);
`proofRefused`: the same for a provider that the register does not know. -/
def Call.ops : Call → List (Op Lock)
  | .findGateways => [.work]
  | .add ways => ways.flatMap AddWay.ops
  | .remove n => [.lock .use, .work] ++ (List.replicate n enter).flatten ++ [.unlock .use]
  | .removeAll => [.lock .use, .lock .active, .work, .unlock .active, .unlock .use]
  | .inUse => [.rlock .use, .work, .runlock .use]
  | .activate ways => ways.flatMap ActWay.ops
  | .deactivate => [.lock .active, .work, .unlock .active]
  | .activeOnes => [.rlock .active, .work, .runlock .active]
  | .search steps => [.rlock .active, .work] ++ steps.flatMap Step.ops ++ [.work, .runlock .active]
  | .proof => [.work] ++ exchange ++ [.work]
  | .proofRefused => [.work]

/-- Threads that make these calls of one client, one after the other. -/
def threads (cs : List (List Call)) : List (Thread Lock) := cs.map (fun c => begin_ (c.flatMap Call.ops))

end FcRetrieval.ClientLocks
