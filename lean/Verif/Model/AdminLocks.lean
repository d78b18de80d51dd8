import Verif.Model.RWLock
/-!
# The lock operations of the two administration libraries

`gateway-admin/pkg/fcrgatewayadmin/filecoin-gateway-admin.go`, `provider-admin/pkg/fcrprovideradmin/filecoin_provider_admin.go`.
Each library has one lock for its book of the nodes in use, and its `AdminApi` has one communicator, whose mutex is held over the whole
exchange with a node (`common/pkg/request/request.go:99-101`).  For each call, the sequence of its lock operations, for each way through
it; deferred releases run on every return, the last one first.  The exchange with the node is `work`; a node that says nothing ends it
only with the time-out of request.go:53.
-/

namespace FcRetrieval.AdminLocks
open FcRetrieval.RWLock

/-- `book`: filecoin-gateway-admin.go:37 `ActiveGatewaysLock`, filecoin_provider_admin.go:38 `ActiveProvidersLock`; `wire`: the mutex of the
communicator (request.go:37-41). -/
inductive Lock where
  | book
  | wire
  deriving DecidableEq

/-- The calls, by the way they take. -/
inductive Call where
  | initialise
  | initialiseFails
  | notSent
  | ask
  | refused
  | features
  | featuresNotSent
  deriving DecidableEq

/-- One exchange with a node.  request.go:99-134 `SendMessage`. -/
def exchange : List (Op Lock) := [.lock .wire, .work, .unlock .wire]

/-- `InitialiseGateway`, `InitialiseGatewayV2`, `InitialiseProvider`, `InitialiseProviderV2` of a node that accepts
(filecoin-gateway-admin.go:53-94, filecoin_provider_admin.go:53-94): the book is written after the exchange. -/
def initialise : List (Op Lock) := exchange ++ [.lock .book, .work, .unlock .book]

/-- The same when the node does not accept (filecoin-gateway-admin.go:55-57, 85-87): the book is not touched. -/
def initialiseFails : List (Op Lock) := exchange

/-- The same when the message cannot be made or signed (initialise_key_requester.go:34-54). -/
def notSent : List (Op Lock) := [.work]

/-- `ForceUpdate`, `ListDHTOffer` (filecoin-gateway-admin.go:112-131), `PublishGroupCID`, `PublishDHTCID`, `GetGroupCIDOffer`, `ForceUpdate`
(filecoin_provider_admin.go:97-138) for a node in use: the book is held for reading over the exchange. -/
def ask : List (Op Lock) := [.rlock .book, .work] ++ exchange ++ [.runlock .book]

/-- The same for a node that is not in use, or when the message cannot be made or signed: nothing is sent. -/
def refused : List (Op Lock) := [.rlock .book, .work, .runlock .book]

/-- `UpdateGatewaySupportedFeatures` (filecoin-gateway-admin.go:133-143): the book is held for writing over the exchange. -/
def features : List (Op Lock) := [.lock .book] ++ exchange ++ [.work, .unlock .book]

/-- The same when the message cannot be made or signed (set_group_cid_support.go:33-53). -/
def featuresNotSent : List (Op Lock) := [.lock .book, .work, .unlock .book]

/-- The lock operations of a call. -/
def Call.ops : Call → List (Op Lock)
  | .initialise => AdminLocks.initialise
  | .initialiseFails => AdminLocks.initialiseFails
  | .notSent => AdminLocks.notSent
  | .ask => AdminLocks.ask
  | .refused => AdminLocks.refused
  | .features => AdminLocks.features
  | .featuresNotSent => AdminLocks.featuresNotSent

/-- Threads that make these calls of one library, one after the other. -/
def threads (cs : List (List Call)) : List (Thread Lock) := cs.map (fun c => begin_ (c.flatMap Call.ops))

end FcRetrieval.AdminLocks
