import Verif.Model.Maps
/-!
# What a provider records of its publications, while requests overlap

A provider keeps, for every gateway, the offers that gateway has acknowledged (`NodeOfferMap`), and for every CID and gateway the
last acknowledgement (`AcknowledgementMap`; provider/internal/core/core.go:82-88).  Each has its own lock.  A request that has
verified the answer of a gateway records the offers one by one, taking first the one lock and then the other for every offer; what
is done under one lock is one step here.  Offers are pairs of the CID they are for (the first one) and a number telling them apart;
gateways, CIDs and acknowledgements are numbers.
-/

namespace FcRetrieval.Provider.Records

/-- An offer: its first CID and which one it is. -/
structure Off where
  cid : Nat
  tag : Nat
  deriving DecidableEq

/-- `NodeOfferMap` and `AcknowledgementMap` (core.go:82-88). -/
structure Recs where
  offers : List (Nat × List Off)
  acks : List (Nat × List (Nat × Nat))

/-- A request being handled. -/
inductive Job where
  /-- Publishing DHT offers `all` to gateway `g`, which has acknowledged them with `ack`: the first `k` are recorded completely; if
  `half`, the next one is in `NodeOfferMap` already (provider/internal/api/providerapi/publish_dht_offer_requester.go:101-124). -/
  | dht (g ack : Nat) (all : List Off) (k : Nat) (half : Bool)
  /-- Publishing a group offer to gateway `g`, which has acknowledged it (publish_group_offer_requester.go:91-101), and whether it is recorded. -/
  | group (g : Nat) (o : Off) (recorded : Bool)
  /-- The admin asks what has been published to these gateways, or to all if there are none
  (provider/internal/api/adminapi/get_published_offer_handler.go:49-67). -/
  | list (gs : List Nat)
  /-- The admin has been answered. -/
  | listed (gs : List Nat) (l : List Off)
  /-- A client asks for the acknowledgement of a gateway for a CID (provider/internal/api/clientapi/dht_offer_ack_handler.go:46-67). -/
  | ask (cid g : Nat)
  /-- The client has been answered: the acknowledgement, if there is one. -/
  | asked (cid g : Nat) (ack : Option Nat)
  deriving DecidableEq

/-- The records and the requests being handled. -/
structure State where
  recs : Recs
  jobs : List Job

/-- `c.NodeOfferMap[gateway] = append(…, offer)`: publish_dht_offer_requester.go:105-110, publish_group_offer_requester.go:96-101. -/
def addOffer (r : Recs) (g : Nat) (o : Off) : Recs :=
  { r with offers := mset r.offers g ((mget r.offers g).getD [] ++ [o]) }

/-- publish_dht_offer_requester.go:114-122. -/
def addAck (r : Recs) (cid g ack : Nat) : Recs :=
  { r with acks := mset r.acks cid (mset ((mget r.acks cid).getD []) g ack) }

/-- get_published_offer_handler.go:52-67.  Go goes through a map in an arbitrary order; here it is the order of first insertion. -/
def published (r : Recs) (gs : List Nat) : List Off :=
  if gs.length > 0 then gs.flatMap (fun g => (mget r.offers g).getD []) else r.offers.flatMap (fun e => e.2)

/-- dht_offer_ack_handler.go:54-57. -/
def acknowledged (r : Recs) (cid g : Nat) : Option Nat :=
  match mget r.acks cid with
  | none => none
  | some m => mget m g

/-- One step of a request; a request that is over does nothing. -/
def act (r : Recs) : Job → Recs × Job
  | .dht g ack all k half =>
    match all[k]? with
    | none => (r, .dht g ack all k half)
    | some o => if half then (addAck r o.cid g ack, .dht g ack all (k + 1) false) else (addOffer r g o, .dht g ack all k true)
  | .group g o recorded => if recorded then (r, .group g o true) else (addOffer r g o, .group g o true)
  | .list gs => (r, .listed gs (published r gs))
  | .listed gs l => (r, .listed gs l)
  | .ask cid g => (r, .asked cid g (acknowledged r cid g))
  | .asked cid g a => (r, .asked cid g a)

/-- One step of request `i`. -/
def step (s : State) (i : Nat) : State :=
  match s.jobs[i]? with
  | none => s
  | some j => { recs := (act s.recs j).1, jobs := s.jobs.set i (act s.recs j).2 }

/-- Any interleaving. -/
def run (s : State) : List Nat → State
  | [] => s
  | i :: l => run (step s i) l

/-- Nothing recorded yet (core.go:116-119). -/
def empty : Recs := { offers := [], acks := [] }

end FcRetrieval.Provider.Records
