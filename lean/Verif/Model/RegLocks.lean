import Verif.Model.RWLock
/-!
# The lock operations of `common/pkg/fcrregistermgr/register_manager.go`

For each call, the sequence of its lock operations, for each way through it.  The channel operations are in `Model/RegRefresh`; here
`Refresh`, register requests and everything else are `work`.
-/

namespace FcRetrieval.RegLocks
open FcRetrieval.RWLock

/-- register_manager.go:52, 57, 66. -/
inductive Lock where
  | ring
  | gateways
  | providers
  deriving DecidableEq

/-- register_manager.go:177-195 `GetGateway`, when the gateway is in the table / when it is not. -/
def getGateway (found : Bool) : List (Op Lock) :=
  [.rlock .gateways, .work, .runlock .gateways] ++ (if found then [] else [.work, .rlock .gateways, .work, .runlock .gateways])

/-- register_manager.go:198-217 `GetProvider`: found; found the second time; not found: the return in line 212 comes before the deferred
release in line 215. -/
inductive Found where
  | first
  | second
  | never

/-- register_manager.go:198-217. -/
def getProvider : Found → List (Op Lock)
  | .first => [.rlock .providers, .work, .runlock .providers]
  | .second => [.rlock .providers, .work, .runlock .providers, .rlock .providers, .work, .runlock .providers]
  | .never => [.rlock .providers, .work, .runlock .providers, .rlock .providers, .work]

/-- register_manager.go:220-232 `GetAllGateways`. -/
def getAllGateways : List (Op Lock) := [.rlock .gateways, .work, .runlock .gateways]

/-- register_manager.go:235-247 `GetAllProviders`. -/
def getAllProviders : List (Op Lock) := [.rlock .providers, .work, .runlock .providers]

/-- register_manager.go:326-354 `GetGatewaysNearCID`; deferred calls run last in, first out. -/
def getGatewaysNear : List (Op Lock) := [.rlock .ring, .rlock .gateways, .work, .runlock .gateways, .runlock .ring]

/-- register_manager.go:298-323 `GetGatewayCIDRange`: it holds the ring's lock while it calls `GetGatewaysNearCID`. -/
def getGatewayCIDRange : List (Op Lock) := [.rlock .ring] ++ getGatewaysNear ++ [.runlock .ring]

/-- register_manager.go:371-391: one gateway of the answer, new or known. -/
def storeGateway (isNew : Bool) : List (Op Lock) :=
  [.rlock .gateways, .work, .runlock .gateways, .lock .gateways, .work, .unlock .gateways] ++
    (if isNew then [.lock .ring, .work, .unlock .ring] else [])

/-- register_manager.go:369-392: a round; for each gateway of the answer whether it is new. -/
def roundGateways (answer : List Bool) : List (Op Lock) := .work :: answer.flatMap storeGateway

/-- register_manager.go:421-440: one provider of the answer. -/
def storeProvider : List (Op Lock) := [.rlock .providers, .work, .runlock .providers, .lock .providers, .work, .unlock .providers]

/-- register_manager.go:418-441: a round with this many providers. -/
def roundProviders (n : Nat) : List (Op Lock) := .work :: (List.replicate n storeProvider).flatten

/-- register_manager.go:462-471 `shutdownGateways`. -/
def shutdownGateways : List (Op Lock) := [.lock .gateways, .work, .unlock .gateways, .work]

/-- register_manager.go:473-482 `shutdownProviders`. -/
def shutdownProviders : List (Op Lock) := [.lock .providers, .work, .unlock .providers, .work]

/-- All of them. -/
inductive Call where
  | getGateway (found : Bool)
  | getProvider (found : Found)
  | getAllGateways
  | getAllProviders
  | getGatewaysNear
  | getGatewayCIDRange
  | roundGateways (answer : List Bool)
  | roundProviders (n : Nat)
  | shutdownGateways
  | shutdownProviders

/-- The lock operations of a call. -/
def Call.ops : Call → List (Op Lock)
  | .getGateway f => RegLocks.getGateway f
  | .getProvider f => RegLocks.getProvider f
  | .getAllGateways => RegLocks.getAllGateways
  | .getAllProviders => RegLocks.getAllProviders
  | .getGatewaysNear => RegLocks.getGatewaysNear
  | .getGatewayCIDRange => RegLocks.getGatewayCIDRange
  | .roundGateways a => RegLocks.roundGateways a
  | .roundProviders n => RegLocks.roundProviders n
  | .shutdownGateways => RegLocks.shutdownGateways
  | .shutdownProviders => RegLocks.shutdownProviders

/-- Threads that make sequences of calls. -/
def threads (cs : List (List Call)) : List (Thread Lock) := cs.map (fun c => begin_ (c.flatMap Call.ops))

end FcRetrieval.RegLocks
