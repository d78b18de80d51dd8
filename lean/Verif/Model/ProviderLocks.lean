import Verif.Model.RWLock
/-!
# The locks of a provider's records

A provider records what gateways have acknowledged in two maps, each with a lock of its own (`provider/internal/core/core.go:82-88`).  For each kind of
request that uses them, the sequence of its lock operations; deferred releases run when the handler returns.  An exchange with a gateway, and writing
an answer to whoever asked, is `work`.  An answer that does not fit what the connection buffers is written as fast as it is read, for as long as that
takes: the server has no time-out (`common/pkg/fcrrestserver/server.go:92`).  Not here: the locks of the connections to gateways (`Model/PoolWait`).
-/

namespace FcRetrieval.ProviderLocks
open FcRetrieval.RWLock

/-- `offers`: core.go:84 `NodeOfferMapLock`, a mutex, that is, only taken for writing; `acks`: core.go:88 `AcknowledgementMapLock`. -/
inductive Lock where
  | offers
  | acks
  deriving DecidableEq

/-- What a provider does. -/
inductive Request where
  /-- Publish `n` DHT offers to a gateway, which acknowledges them. -/
  | publishDht (n : Nat)
  /-- Publish a group offer to a gateway, which acknowledges it. -/
  | publishGroup
  /-- Publish to a gateway whose answer is not accepted, or does not come. -/
  | publishFails
  /-- Give a gateway the DHT offers in its range, in `n` messages, which it acknowledges. -/
  | list (n : Nat)
  /-- Tell the admin what has been published. -/
  | published
  /-- Show a client an acknowledgement. -/
  | ask
  deriving DecidableEq

/-- `provider/internal/api/providerapi/publish_dht_offer_requester.go:102-124`: one offer is recorded. -/
def recordOffer : List (Op Lock) := [.lock .offers, .work, .unlock .offers, .lock .acks, .work, .unlock .acks]

/-- `provider/internal/api/gatewayapi/list_dht_offer_handler.go:151-158`: the offers of one message are recorded. -/
def recordListed : List (Op Lock) := [.lock .acks, .work, .unlock .acks]

/-- The lock operations. -/
def Request.ops : Request → List (Op Lock)
  /- publish_dht_offer_requester.go:51-125. -/
  | .publishDht n => .work :: (List.replicate n recordOffer).flatten
  /- publish_group_offer_requester.go:48-105. -/
  | .publishGroup => [.work, .lock .offers, .work, .unlock .offers]
  /- publish_dht_offer_requester.go:55-99, publish_group_offer_requester.go:51-90, 103. -/
  | .publishFails => [.work]
  /- list_dht_offer_handler.go:64-160. -/
  | .list n => .work :: (List.replicate n recordListed).flatten
  /- get_published_offer_handler.go:49-90: collecting, then signing and writing the answer. -/
  | .published => [.lock .offers, .work, .work, .unlock .offers]
  /- dht_offer_ack_handler.go:46-80: looking up, then signing and writing the answer. -/
  | .ask => [.rlock .acks, .work, .work, .runlock .acks]

/-- Threads that handle these requests, one after the other. -/
def threads (rs : List (List Request)) : List (Thread Lock) := rs.map (fun r => begin_ (r.flatMap Request.ops))

end FcRetrieval.ProviderLocks
