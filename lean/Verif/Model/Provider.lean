import Verif.Model.Codecs
import Verif.Model.OfferMgr
import Verif.Model.Register
/-!
# Model of the request handlers of the provider (`provider/internal/api`)

One request at a time, run to its end.  The decoders and encoders are `Model/Codecs`, signatures `Model/Message` and
`Model/Crypto`, the offer store of the provider `Model/OfferMgr`.  What the register manager answers, the clock, and what other
nodes reply are parameters: `Env`.

The offer store holds pointers.  `heap` lists the variables they point to, a reference is a position in it.

A panic in a handler of the P2P server ends the process; a panic in a REST handler is recovered by `net/http`.  Deadlines,
failures to write an answer and log messages are not modelled.
-/

namespace FcRetrieval.Provider
open FcRetrieval.Ids (Id)
open FcRetrieval.Merkle (Hash)
open FcRetrieval.Crypto (Prims KeyPair KeyVersion)
open FcRetrieval.Message (Msg Protocol)
open FcRetrieval.Offer (CidOffer)
open FcRetrieval.Register (Record)
open FcRetrieval.Wire (Codec encode decode)
open FcRetrieval.Codecs
open FcRetrieval.OfferMgr (Clock DigestMap Mgr)

/-- What a handler depends on besides the request and the provider. -/
structure Env where
  /-- Keccak-256, for the Merkle trees. -/
  H : Hash
  /-- SHA-512/256, for the digests of offers. -/
  H512 : Hash
  P : Prims
  /-- The protocol versions written into every message. -/
  pr : Protocol
  now : Clock
  /-- The orders in which Go iterates over maps. -/
  order : DigestMap Nat → DigestMap Nat
  orderSent : List (List Char × List CidOffer) → List (List Char × List CidOffer)
  /-- The digest read from text that is not base64. -/
  badDigest : List Char → Bytes
  /-- The register manager: `GetGateway`, `GetAllGateways`, and `GetGatewaysNearCID` for 16 gateways. -/
  gateway : Id → Option Record
  gateways : List Record
  near : Id → Option (List Record)
  /-- What is read from a gateway after the `n`-th message of the handler is sent to it; `none` if it cannot be reached or does
  not answer. -/
  exchange : Nat → Id → Msg → Option Msg
  /-- What is read after an answer is written. -/
  reply : Msg → Option Msg
  /-- Whether the payment manager can be set up. -/
  payments : Bool

/-- core.go:52-92, the parts that the handlers use. -/
structure Core where
  id : Option Id
  key : Option (KeyPair × KeyVersion)
  heap : List CidOffer
  offers : Mgr Nat
  /-- `NodeOfferMap`. -/
  sent : List (List Char × List CidOffer)
  /-- `AcknowledgementMap`: the request and its acknowledgement, per CID and gateway. -/
  acks : List (List Char × List (List Char × (Msg × Msg)))
  /-- `GroupOfferGatewayIDs`. -/
  groupGateways : List Id

/-- core.go:99-125 `GetSingleInstance`. -/
def newCore : Core := ⟨none, none, [], OfferMgr.newMgr, [], [], []⟩

/-- What is seen from outside. -/
inductive Out where
  /-- A message written to the requester. -/
  | message (m : Msg)
  /-- `rest.Error` with this status. -/
  | status (code : Nat)
  /-- `WriteInvalidMessage`. -/
  | invalid
  /-- The handler returns an error and nothing (more) is written. -/
  | failed
  /-- A message sent, or tried to be sent, to a gateway. -/
  | asked (node : Id) (m : Msg)
  /-- A requester returned without error. -/
  | confirmed (node : Id) (offers : List CidOffer)
  /-- `RegisterMgr.Refresh`. -/
  | refresh
  | panic

/-- An offer variable before it is set. -/
def noOffer : CidOffer := { providerID := none, cids := [], price := 0, expiry := 0, qos := 0, signature := [], merkleRoot := [] }

/-- What a reference shows. -/
def deref (heap : List CidOffer) (r : Nat) : CidOffer := heap.getD r noOffer

/-- `FCRMessage.Sign` with the key of the provider, which is nil before the admin sets it. -/
def signMsg (E : Env) (c : Core) (m : Msg) : Res Msg :=
  match c.key with
  | none => .panic
  | some (k, v) =>
    match Message.sign E.P k v m with
    | (m', true) => .ok m'
    | (_, false) => .err

/-- The end of every handler: encode, sign, write. -/
def respond {α : Type} (E : Env) (c : Core) (codec : Codec α) (badEncode badSign : List Out) (a : α) : List Out :=
  match encode codec E.pr a with
  | .panic => [.panic]
  | .err => badEncode
  | .ok m =>
    match signMsg E c m with
    | .panic => [.panic]
    | .err => badSign
    | .ok m' => [.message m']

/-! ## adminapi -/

/-- adminapi/initialise_key_handler.go:30-66. -/
def initialise (E : Env) (c : Core) (m : Msg) : Core × List Out :=
  match decode providerAdminInitialiseKeyRequest m with
  | .ok (id, some k, some v) =>
    let c' := { c with id := id, key := some (k, v) }
    (c', respond E c' providerAdminInitialiseKeyResponse [.status 500] [.status 500] true)
  | .err => (c, [.status 400])
  | _ => (c, [.panic])

/-- adminapi/initialise_key_handler_v2.go:31-74: identifier and key are set before the payment manager is tried. -/
def initialiseV2 (E : Env) (c : Core) (m : Msg) : Core × List Out :=
  match decode providerAdminInitialiseKeyRequestV2 m with
  | .ok (id, some k, some v, _) =>
    let c' := { c with id := id, key := some (k, v) }
    (c', if E.payments then respond E c' providerAdminInitialiseKeyResponse [.status 500] [.status 500] true else [.status 400])
  | .err => (c, [.status 400])
  | _ => (c, [.panic])

/-- adminapi/force_refresh_handler.go:33-79. -/
def forceRefresh (E : Env) (c : Core) (m : Msg) : Core × List Out :=
  if c.key = none then (c, [.status 400])
  else
    match decode providerAdminForceRefreshRequest m with
    | .panic => (c, [.panic])
    | .err => (c, [.status 400])
    | .ok refresh => (c, (if refresh then [.refresh] else []) ++
        respond E c providerAdminForceRefreshResponse [.status 500] [.status 500] refresh)

/-- adminapi/publish_dht_offer_handler.go:58-77: one offer for each CID; `.err` is the status 500. -/
def makeOffers (E : Env) (id : Option Id) (k : KeyPair) (v : KeyVersion) : List (Id × Nat × Int × Nat) → Res (List CidOffer)
  | [] => .ok []
  | (cid, price, expiry, qos) :: rest => do
    let o ← Res.ofOption (Offer.newOffer E.H id [cid] price expiry qos)
    let o ← Offer.sign E.P k v o
    let os ← makeOffers E id k v rest
    return o :: os

/-- adminapi/publish_dht_offer_handler.go:80-84: `&offer` is the address of the loop variable, one for the whole loop (Go 1.16).
`cell` is that variable; in each turn it is set to the next offer. -/
def storeLoop (E : Env) (heap : List CidOffer) (cell : Nat) : Mgr Nat → List CidOffer → Except Ring.Fault (Mgr Nat)
  | mgr, [] => .ok mgr
  | mgr, o :: os => do
    let (mgr, _) ← OfferMgr.addDht E.H512 (deref (heap ++ [o])) E.now mgr cell
    storeLoop E heap cell mgr os

/-- publish_dht_offer_requester.go:100-125: one offer into both maps. -/
def recordSent (gid : Id) (req resp : Msg) (c : Core) (o : CidOffer) : Res Core :=
  let c1 := { c with sent := mset c.sent (Ids.toStr gid) ((mget c.sent (Ids.toStr gid)).getD [] ++ [o]) }
  match o.cids with
  | [] => .panic
  | cid :: _ =>
    .ok { c1 with acks := mset c.acks (Ids.toStr cid) (mset ((mget c.acks (Ids.toStr cid)).getD []) (Ids.toStr gid) (req, resp)) }

/-- publish_dht_offer_requester.go:99-126. -/
def recordAll (gid : Id) (req resp : Msg) : Core → List CidOffer → Res Core
  | c, [] => .ok c
  | c, o :: os => do
    let c ← recordSent gid req resp c o
    recordAll gid req resp c os

/-- The registered signing key of a gateway. -/
def gatewayKey (E : Env) (id : Id) : Res KeyPair :=
  match E.gateway id with
  | none => .err
  | some r => Crypto.decodePublicKey r.signingKey

/-- publish_dht_offer_requester.go:80-96: the answer to a publish request, checked. -/
def checkAck (E : Env) (gid : Id) (req resp : Msg) : Res Unit := do
  let k ← gatewayKey E gid
  if (Message.verify E.P k resp).2 then
    let (_, sig) ← decode providerPublishDHTOfferResponse resp
    if Crypto.verifyMessage E.P k sig (req.body.getD []) = some true then .ok () else .err
  else .err

/-- publish_dht_offer_requester.go:34-127 `RequestProviderPublishDHTOffer`; `n` counts the requests of the handler.  The flag is
false after a panic. -/
def publishDhtTo (E : Env) (c : Core) (n : Nat) (offers : List CidOffer) (gid : Id) : Core × List Out × Bool :=
  match encode (providerPublishDHTOfferRequest E.H) E.pr (c.id, 1, offers) with
  | .panic => (c, [.panic], false)
  | .err => (c, [], true)
  | .ok req =>
    match signMsg E c req with
    | .panic => (c, [.panic], false)
    | .err => (c, [], true)
    | .ok req =>
      match E.exchange n gid req with
      | none => (c, [.asked gid req], true)
      | some resp =>
        match checkAck E gid req resp with
        | .panic => (c, [.asked gid req, .panic], false)
        | .err => (c, [.asked gid req], true)
        | .ok _ =>
          match recordAll gid req resp c offers with
          | .ok c' => (c', [.asked gid req, .confirmed gid offers], true)
          | _ => (c, [.asked gid req, .panic], false)

/-- publish_group_offer_requester.go:81-83: the digest in the answer. -/
def readDigest (E : Env) (s : List Char) : Bytes := (Offer.decodeDigest s).getD (E.badDigest s)

/-- publish_group_offer_requester.go:61-101: the answer to a group publish request, checked. -/
def checkGroupAck (E : Env) (gid : Id) (o : CidOffer) (resp : Msg) : Res Unit := do
  let k ← gatewayKey E gid
  if (Message.verify E.P k resp).2 then
    let (_, d) ← decode providerPublishGroupOfferResponse resp
    let digest ← Offer.digest E.H512 o
    if readDigest E d = digest then .ok () else .err
  else .err

/-- publish_group_offer_requester.go:31-106 `RequestProviderPublishGroupOffer`. -/
def publishGroupTo (E : Env) (c : Core) (n : Nat) (o : CidOffer) (gid : Id) : Core × List Out × Bool :=
  match encode (providerPublishGroupOfferRequest E.H) E.pr (c.id, 1, some o) with
  | .panic => (c, [.panic], false)
  | .err => (c, [], true)
  | .ok req =>
    match signMsg E c req with
    | .panic => (c, [.panic], false)
    | .err => (c, [], true)
    | .ok req =>
      match E.exchange n gid req with
      | none => (c, [.asked gid req], true)
      | some resp =>
        match checkGroupAck E gid o resp with
        | .panic => (c, [.asked gid req, .panic], false)
        | .err => (c, [.asked gid req], true)
        | .ok _ =>
          ({ c with sent := mset c.sent (Ids.toStr gid) ((mget c.sent (Ids.toStr gid)).getD [] ++ [o]) },
            [.asked gid req, .confirmed gid [o]], true)

/-- publish_dht_offer_handler.go:95-108, publish_group_offer_handler.go:67-80: the gateways in turn, with the number of requests
made so far.  The flag is false if the handler is to end. -/
def gatewayLoop (send : Core → Nat → Id → Core × List Out × Bool) : Core → Nat → List Record → Core × List Out × Nat × Bool
  | c, n, [] => (c, [], n, true)
  | c, n, r :: rs =>
    match Ids.fromHex r.nodeID with
    | none => (c, [.status 400], n, false)
    | some gid =>
      match send c n gid with
      | (c', out, false) => (c', out, n, false)
      | (c', out, true) =>
        let l := gatewayLoop send c' (n + 1) rs
        (l.1, out ++ l.2.1, l.2.2)

/-- publish_dht_offer_handler.go:86-109: for every CID the gateways near it, each of which gets all the offers. -/
def nearLoop (E : Env) (offers : List CidOffer) : Core → Nat → List Id → Core × List Out × Bool
  | c, _, [] => (c, [], true)
  | c, n, cid :: cids =>
    match E.near cid with
    | none => (c, [.status 500], false)
    | some rs =>
      match gatewayLoop (fun c n gid => publishDhtTo E c n offers gid) c n rs with
      | (c', out, _, false) => (c', out, false)
      | (c', out, n', true) =>
        let l := nearLoop E offers c' n' cids
        (l.1, out ++ l.2.1, l.2.2)

/-- adminapi/publish_dht_offer_handler.go:31-124. -/
def publishDht (E : Env) (c : Core) (m : Msg) : Core × List Out :=
  match c.key with
  | none => (c, [.status 400])
  | some (k, v) =>
    match decode providerAdminPublishDHTOfferRequest m with
    | .panic => (c, [.panic])
    | .err => (c, [.status 400])
    | .ok (cids, price, expiry, qos) =>
      if cids.length = 0 ∨ cids.length ≠ price.length ∨ cids.length ≠ expiry.length ∨ cids.length ≠ qos.length then (c, [.status 400])
      else
        match makeOffers E c.id k v (cids.zip (price.zip (expiry.zip qos))) with
        | .panic => (c, [.panic])
        | .err => (c, [.status 500])
        | .ok offers =>
          match storeLoop E c.heap c.heap.length c.offers offers with
          | .error _ => (c, [.panic])
          | .ok mgr =>
            match nearLoop E offers { c with heap := c.heap ++ [offers.getLastD noOffer], offers := mgr } 0 cids with
            | (c', out, false) => (c', out)
            | (c', out, true) => (c', out ++ respond E c' providerAdminPublishDHTOfferResponse [] [] true)

/-- adminapi/publish_group_offer_handler.go:31-101. -/
def publishGroup (E : Env) (c : Core) (m : Msg) : Core × List Out :=
  match c.key with
  | none => (c, [.status 400])
  | some (k, v) =>
    match decode providerAdminPublishGroupOfferRequest m with
    | .panic => (c, [.panic])
    | .err => (c, [.status 400])
    | .ok (cids, price, expiry, qos) =>
      match Offer.newOffer E.H c.id cids price expiry qos with
      | none => (c, [.status 400])
      | some o =>
        match Offer.sign E.P k v o with
        | .panic => (c, [.panic])
        | .err => (c, [.status 400])
        | .ok o =>
          match OfferMgr.addGroup E.H512 (deref (c.heap ++ [o])) E.now c.offers c.heap.length with
          | .error _ => (c, [.panic])
          | .ok (mgr, _) =>
            match gatewayLoop (fun c n gid => publishGroupTo E c n o gid) { c with heap := c.heap ++ [o], offers := mgr } 0 E.gateways with
            | (c', out, _, false) => (c', out)
            | (c', out, _, true) => (c', out ++ respond E c' providerAdminPublishGroupOfferResponse [] [] true)

/-- adminapi/get_published_offer_handler.go:30-90. -/
def getPublished (E : Env) (c : Core) (m : Msg) : Core × List Out :=
  if c.key = none then (c, [.status 400])
  else
    match decode providerAdminGetPublishedOfferRequest m with
    | .panic => (c, [.panic])
    | .err => (c, [.status 400])
    | .ok ids =>
      let offers :=
        if ids.length > 0 then ids.flatMap (fun id => (mget c.sent (Ids.toStr id)).getD [])
        else (E.orderSent c.sent).flatMap (fun e => e.2)
      (c, respond E c (providerAdminGetPublishedOfferResponse E.H) [.status 500] [.status 500] (decide (offers.length > 0), offers))

/-! ## clientapi -/

/-- clientapi/dht_offer_ack_handler.go:34-80; before the admin sets the identifier the answer prepared for the negative case is a
nil dereference. -/
def offerAck (E : Env) (c : Core) (m : Msg) : Core × List Out :=
  match decode clientDHTOfferAckRequest m with
  | .panic => (c, [.panic])
  | .err => (c, [.status 400])
  | .ok (cid, gid) =>
    match encode (providerPublishDHTOfferRequest E.H) E.pr (c.id, 0, []), encode providerPublishDHTOfferResponse E.pr (0, []), cid, gid with
    | .ok dummyMsg, .ok dummyAck, some cid, some gid =>
      match (mget c.acks (Ids.toStr cid)).bind (fun gs => mget gs (Ids.toStr gid)) with
      | some (req, ack) => (c, respond E c clientDHTOfferAckResponse [.status 500] [.status 500] (some cid, some gid, true, some req, some ack))
      | none => (c, respond E c clientDHTOfferAckResponse [.panic] [.status 500] (some cid, some gid, false, some dummyMsg, some dummyAck))
    | _, _, _, _ => (c, [.panic])

/-! ## gatewayapi -/

/-- The registered key of the sender, under which the request verifies; a nil identifier is dereferenced by the register manager
(list_dht_offer_handler.go:42-58, notify_group_cid_offer_supported.go:38-54). -/
def senderKey (E : Env) (id : Option Id) (m : Msg) : Res KeyPair :=
  match id with
  | none => .panic
  | some id => do
    let k ← gatewayKey E id
    if (Message.verify E.P k m).2 then .ok k else .err

/-- list_dht_offer_handler.go:64, 77-101: 50 offers at a time. -/
def chunks (offers : List CidOffer) : List (List CidOffer) :=
  if offers.length > 50 then offers.take 50 :: chunks (offers.drop 50) else [offers]
  termination_by offers.length
  decreasing_by simp; omega

/-- list_dht_offer_handler.go:77-103: the messages, or what is seen instead. -/
def listMessages (E : Env) (c : Core) : List (List CidOffer) → Except (List Out) (List Msg)
  | [] => .ok []
  | os :: rest =>
    match encode (providerPublishDHTOfferRequest E.H) E.pr (c.id, 1, os) with
    | .panic => .error [.panic]
    | .err => .error [.failed]
    | .ok m =>
      match signMsg E c m with
      | .panic => .error [.panic]
      | .err => .error [.invalid]
      | .ok m => do
        let ms ← listMessages E c rest
        return m :: ms

/-- list_dht_offer_handler.go:151-157: writing into the map of a CID, which is nil if nothing was recorded for that CID before. -/
def recordListed (gid : Id) (req ack : Msg) : Core → List CidOffer → Core × Bool
  | c, [] => (c, true)
  | c, o :: os =>
    match o.cids with
    | [] => (c, false)
    | cid :: _ =>
      match mget c.acks (Ids.toStr cid) with
      | none => (c, false)
      | some gs => recordListed gid req ack { c with acks := mset c.acks (Ids.toStr cid) (mset gs (Ids.toStr gid) (req, ack)) } os

/-- list_dht_offer_handler.go:129-160: the acknowledgements in turn. -/
def takeAcks (E : Env) (k : KeyPair) (gid : Id) : Core → List (Msg × Msg) → Core × List Out
  | c, [] => (c, [])
  | c, (req, ack) :: rest =>
    match decode providerPublishDHTOfferResponse ack with
    | .panic => (c, [.panic])
    | .err => (c, [.failed])
    | .ok (_, sig) =>
      if Crypto.verifyMessage E.P k sig (req.body.getD []) = some true then
        match decode (providerPublishDHTOfferRequest E.H) req with
        | .panic => (c, [.panic])
        | .err => (c, [.failed])
        | .ok (_, _, offers) =>
          match recordListed gid req ack c offers with
          | (c', false) => (c', [.panic])
          | (c', true) => takeAcks E k gid c' rest
      else (c, [.failed])

/-- list_dht_offer_handler.go:122: the error is not looked at, the list is then nil. -/
def ackList : Res (List Msg) → List Msg
  | .ok l => l
  | _ => []

/-- list_dht_offer_handler.go:114-161: what is done with what the gateway sends after the answer.  An error in decoding it is not
looked at: the list is then empty. -/
def finishListing (E : Env) (k : KeyPair) (gid : Id) (c : Core) (msgs : List Msg) (reply : Option Msg) : Core × List Out :=
  match reply with
  | none => (c, [.failed])
  | some acks =>
    if (Message.verify E.P k acks).2 then
      match decode gatewayListDHTOfferAck acks with
      | .panic => (c, [.panic])
      | r => if (ackList r).length ≠ msgs.length then (c, [.failed]) else takeAcks E k gid c (msgs.zip (ackList r))
    else (c, [.failed])

/-- gatewayapi/list_dht_offer_handler.go:33-161. -/
def listDht (E : Env) (c : Core) (m : Msg) : Core × List Out :=
  match decode gatewayListDHTOfferRequest m with
  | .panic => (c, [.panic])
  | .err => (c, [.invalid])
  | .ok (gw, cidMin, cidMax, _) =>
    match senderKey E gw m, gw with
    | .ok k, some gid =>
      match cidMin, cidMax with
      | some a, some b =>
        match OfferMgr.getDhtRange E.H512 (deref c.heap) E.order E.now c.offers a b 500 with
        | .error _ => (c, [.panic])
        | .ok (mgr, offers, found) =>
          let c' := { c with offers := mgr }
          match listMessages E c' (if found then chunks offers else []) with
          | .error out => (c', out)
          | .ok msgs =>
            match respond E c' gatewayListDHTOfferResponse [.invalid] [.invalid] msgs with
            | [.message r] =>
              let f := finishListing E k gid c' msgs (E.reply r)
              (f.1, .message r :: f.2)
            | out => (c', out)
      | _, _ => (c, [.panic])
    | .err, _ => (c, [.invalid])
    | _, _ => (c, [.panic])

/-- common/pkg/slice/slice.go:13-25 `Exists` as used here: a `NodeID` is compared with a `*NodeID`.  Interface values of different
types are never equal, so nothing is found. -/
def existsIn (_saved : List Id) (_id : Id) : Option Nat := none

/-- notify_group_cid_offer_supported.go:79-98 `updateGatewaysSupportingGroupCIDOffer`: the slice of the caller afterwards (the callee
has a copy of its header, so the length stays), and the slice of the callee, which is dropped. -/
def updateGroup (supported : Bool) (saved : List Id) (id : Id) : List Id × List Id :=
  match existsIn saved id with
  | none => (saved, if supported then saved ++ [id] else saved)
  | some i => if supported then (saved, saved) else (saved.set i (saved.getLastD []), (saved.set i (saved.getLastD [])).dropLast)

/-- gatewayapi/notify_group_cid_offer_supported.go:27-76. -/
def notifyGroup (E : Env) (c : Core) (m : Msg) : Core × List Out :=
  match decode gatewayNotifyProviderGroupCIDOfferSupportRequest m with
  | .panic => (c, [.panic])
  | .err => (c, [.invalid])
  | .ok (gw, supported) =>
    match senderKey E gw m, gw with
    | .ok _, some gid =>
      let c' := { c with groupGateways := (updateGroup supported c.groupGateways gid).1 }
      (c', respond E c' gatewayNotifyProviderGroupCIDOfferSupportResponse [.invalid] [.invalid] true)
    | .err, _ => (c, [.invalid])
    | _, _ => (c, [.panic])

/-- The kinds of requests that a provider serves. -/
inductive Kind where
  | initialise
  | initialiseV2
  | forceRefresh
  | publishDht
  | publishGroup
  | getPublished
  | offerAck
  | listDht
  | notifyGroup
  deriving DecidableEq

/-- provider/cmd/provider/main.go:66-101: the handler of each kind. -/
def serve (E : Env) (c : Core) : Kind → Msg → Core × List Out
  | .initialise => initialise E c
  | .initialiseV2 => initialiseV2 E c
  | .forceRefresh => forceRefresh E c
  | .publishDht => publishDht E c
  | .publishGroup => publishGroup E c
  | .getPublished => getPublished E c
  | .offerAck => offerAck E c
  | .listDht => listDht E c
  | .notifyGroup => notifyGroup E c

/-- The life of a provider: requests one after the other, each in its own circumstances; everything seen from outside. -/
def serveAll (c : Core) : List (Env × Kind × Msg) → Core × List Out
  | [] => (c, [])
  | (E, k, m) :: h =>
    let r := serve E c k m
    let l := serveAll r.1 h
    (l.1, r.2 ++ l.2)

end FcRetrieval.Provider
