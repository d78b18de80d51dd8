import Verif.Model.Codecs
import Verif.Model.SqlOffer
import Verif.Model.Payment
import Verif.Model.Register
/-!
# Model of the request handlers of the gateway (`gateway/internal/api`)

One request at a time, run to its end, in a gateway that the admin has initialised with identifier, key and payment manager.
What the handlers call is modelled elsewhere: the decoders and encoders (`Model/Codecs`), signatures (`Model/Message`,
`Model/Crypto`), the offer store of the gateway (`Model/SqlOffer`), the payment manager (`Model/Payment`).  What the register
manager answers (`Model/RegMgr`), what the chain shows, the clock, and what another node replies are parameters: `Env`.

A handler gives the gateway afterwards and the list of what it did that can be seen from outside.  A panic in a handler of the P2P
server ends the process; a panic in a REST handler is recovered by `net/http`, the client gets no answer.
Deadlines, failures to write an answer and log messages are not modelled.
-/

namespace FcRetrieval.Gateway
open FcRetrieval.Ids (Id)
open FcRetrieval.Merkle (Hash)
open FcRetrieval.Crypto (Prims KeyPair KeyVersion)
open FcRetrieval.Message (Msg Protocol)
open FcRetrieval.Offer (CidOffer SubOffer)
open FcRetrieval.Payment (Addr Voucher VBody ChainView TopupChain RecvOut)
open FcRetrieval.Register (Record)
open FcRetrieval.Wire (Codec encode decode)
open FcRetrieval.Codecs

/-- What a handler depends on besides the request and the gateway. -/
structure Env (Sig : Type) where
  /-- Keccak-256, for the Merkle trees. -/
  H : Hash
  /-- SHA-512/256, for the digests of offers. -/
  H512 : Hash
  P : Prims
  /-- The protocol versions written into every message. -/
  pr : Protocol
  /-- The clock, in seconds since 1970, and its distance from UTC. -/
  now : Int
  off : Int
  /-- The order in which the database returns rows. -/
  order : List SqlOffer.OfferRow → List SqlOffer.OfferRow
  /-- Which statements the database refuses while storing an offer. -/
  dbFails : CidOffer → Nat → Bool
  /-- The digest read from text that is not base64. -/
  badDigest : List Char → Bytes
  /-- Vouchers as text. -/
  readVoucher : List Char → Option (Voucher Sig)
  showVoucher : Voucher Sig → List Char
  verifyVoucher : Sig → Addr → VBody → Bool
  signVoucher : VBody → Option Sig
  /-- What the chain shows of a channel, and does with the first and second top-up for a recipient. -/
  chain : Addr → Option ChainView
  topups : Addr → Nat → TopupChain
  /-- The register manager: `GetGateway`, `GetProvider`, `GetGatewaysNearCID` with the own identifier excluded. -/
  gateway : Id → Option Record
  provider : Id → Option Record
  near : Id → Int → Option (List Record)
  /-- What is read from another node after a message is sent to it; `none` if it cannot be reached or does not answer. -/
  exchange : Id → Msg → Option Msg

/-- core.go:46-92 and settings.go:66-68, the parts that the handlers use. -/
structure Core (Sig : Type) where
  id : Id
  key : KeyPair
  keyVersion : KeyVersion
  searchPrice : Int
  offerPrice : Int
  topupAmount : Int
  db : SqlOffer.DB
  payment : Payment.Mgr Sig

/-- What is seen from outside. -/
inductive Out (Sig : Type) where
  /-- A message written to the requester. -/
  | message (m : Msg)
  /-- `rest.Error` with this status. -/
  | status (code : Nat)
  /-- `WriteInvalidMessage`. -/
  | invalid
  /-- The handler returns an error and nothing is written. -/
  | failed
  /-- A message sent, or tried to be sent, to another node. -/
  | asked (node : Id) (m : Msg)
  /-- A voucher issued by this gateway. -/
  | paid (recipient : Addr) (voucher : Voucher Sig)
  | panic

variable {Sig : Type}

/-- The end of every handler: encode, sign, write. -/
def respond {α : Type} (E : Env Sig) (c : Core Sig) (codec : Codec α) (badEncode badSign : Out Sig) (a : α) : List (Out Sig) :=
  match encode codec E.pr a with
  | .panic => [.panic]
  | .err => [badEncode]
  | .ok m =>
    match Message.sign E.P c.key c.keyVersion m with
    | (m', true) => [.message m']
    | (_, false) => [badSign]

/-- `PaymentMgr.Receive`. -/
def receive (E : Env Sig) (c : Core Sig) (channel voucher : List Char) : Core Sig × RecvOut :=
  let r := Payment.receive E.verifyVoucher c.payment (String.ofList channel) (E.readVoucher voucher) (E.chain (String.ofList channel))
  ({ c with payment := r.1 }, r.2)

/-- `OffersMgr.GetOffers`. -/
def getOffers (E : Env Sig) (c : Core Sig) (cid : Id) : Res (List CidOffer × Bool) :=
  SqlOffer.getOffers E.H E.order E.off E.now c.db cid

/-- `cidoffer.DecodeMessageDigest`. -/
def readDigest (E : Env Sig) (s : List Char) : Bytes := (Offer.decodeDigest s).getD (E.badDigest s)

/-- `EncodeMessageDigest(offer.GetMessageDigest())` for every offer. -/
def digests (E : Env Sig) : List CidOffer → Res (List (List Char))
  | [] => .ok []
  | o :: os => do
    let d ← Offer.digest E.H512 o
    let ds ← digests E os
    return Offer.encodeDigest d :: ds

/-- standard_discover_offer_handler.go:61-73, dht_discover_offer_handler.go:71-82: an offer that is not found is a nil
dereference, so every `exist` is true. -/
def offersByDigest (E : Env Sig) (c : Core Sig) (cid : Option Id) : List (List Char) → Res (List SubOffer)
  | [] => .ok []
  | d :: ds =>
    match SqlOffer.getByDigest E.H E.order E.off E.now c.db (readDigest E d), cid with
    | .ok (some o), some cid => do
      let os ← offersByDigest E c (some cid) ds
      return Offer.subOffer E.H o cid :: os
    | _, _ => .panic

/-! ## clientapi -/

/-- clientapi/establishment_handler.go:30-71. -/
def establishment (E : Env Sig) (c : Core Sig) (m : Msg) : Core Sig × List (Out Sig) :=
  match decode clientEstablishmentRequest m with
  | .panic => (c, [.panic])
  | .err => (c, [.status 400])
  | .ok (none, _, _) => (c, [.panic])
  | .ok (some _, challenge, ttl) =>
    if E.now > ttl then (c, [])
    else (c, respond E c clientEstablishmentResponse (.status 400) (.status 500) (some c.id, challenge))

/-- clientapi/standard_discover_handler.go:32-89. -/
def standard (E : Env Sig) (c : Core Sig) (m : Msg) : Core Sig × List (Out Sig) :=
  match decode clientStandardDiscoverRequest m with
  | .panic => (c, [.panic])
  | .err => (c, [.status 400])
  | .ok (cid, nonce, ttl, _, _) =>
    if E.now > ttl then (c, [])
    else
      match cid with
      | none => (c, [.panic])
      | some id =>
        match getOffers E c id with
        | .ok (offers, found) =>
          (c, respond E c clientStandardDiscoverResponse (.status 400) (.status 500)
            (some id, nonce, found, offers.map (fun o => Offer.subOffer E.H o id), offers.map (fun _ => false)))
        | _ => (c, [.panic])

/-- clientapi/standard_discover_handler_v2.go:31-97. -/
def standardV2 (E : Env Sig) (c : Core Sig) (m : Msg) : Core Sig × List (Out Sig) :=
  match decode clientStandardDiscoverRequestV2 m with
  | .panic => (c, [.panic])
  | .err => (c, [.status 400])
  | .ok (cid, nonce, ttl, channel, voucher) =>
    if E.now > ttl then (c, [])
    else
      match cid with
      | none => (c, [.panic])
      | some id =>
        match getOffers E c id with
        | .ok (offers, found) =>
          let short := respond E c clientStandardDiscoverResponseV2 (.status 400) (.status 500) (some id, nonce, found, [], [], true, channel)
          match receive E c channel voucher with
          | (c', .panic) => (c', [.panic])
          | (c', .error) => (c', short)
          | (c', .credited amount) =>
            if amount ≥ c.searchPrice then
              match digests E offers with
              | .ok ds => (c', respond E c clientStandardDiscoverResponseV2 (.status 400) (.status 500)
                  (some id, nonce, found, ds, offers.map (fun _ => false), false, []))
              | _ => (c', [.panic])
            else (c', short)
        | _ => (c, [.panic])

/-- clientapi/standard_discover_offer_handler.go:32-107. -/
def standardOffer (E : Env Sig) (c : Core Sig) (m : Msg) : Core Sig × List (Out Sig) :=
  match decode clientStandardDiscoverOfferRequest m with
  | .panic => (c, [.panic])
  | .err => (c, [.status 400])
  | .ok (cid, nonce, ttl, ds, channel, voucher) =>
    if E.now > ttl then (c, [])
    else
      let short := respond E c clientStandardDiscoverOfferResponse (.status 400) (.status 500) (cid, nonce, false, [], [], true, channel)
      match receive E c channel voucher with
      | (c', .panic) => (c', [.panic])
      | (c', .error) => (c', short)
      | (c', .credited amount) =>
        if amount ≥ c.offerPrice * ds.length then
          match offersByDigest E c cid ds with
          | .ok os => (c', respond E c clientStandardDiscoverOfferResponse (.status 400) (.status 500)
              (cid, nonce, !ds.isEmpty, os, ds.map (fun _ => true), false, []))
          | _ => (c', [.panic])
        else (c', short)

/-- What the DHT handlers collect. -/
structure Contacts where
  contacted : List Id
  responses : List Msg
  missed : List Id

/-- The answer of one more gateway. -/
def Contacts.add (k : Contacts) (id : Id) : Res Msg → Contacts
  | .ok m => { k with contacted := k.contacted ++ [id], responses := k.responses ++ [m] }
  | _ => { k with missed := k.missed ++ [id] }

/-- `GetSigningKey`: common/pkg/register/gateway_register.go:103-105, provider_register.go:112-114. -/
def signingKey (r : Record) : Res KeyPair := Crypto.decodePublicKey r.signingKey

/-- The requesters, gatewayapi/dht_discover_requester.go:53-82, dht_discover_requester_v2.go:61-90,
dht_discover_offer_requester.go:68-98: sign, send, read, and verify under the registered key of the gateway asked. -/
def request (E : Env Sig) (c : Core Sig) (id : Id) (m : Res Msg) : List (Out Sig) × Res Msg :=
  match m with
  | .ok m =>
    match Message.sign E.P c.key c.keyVersion m with
    | (m', true) =>
      ([.asked id m'],
        match E.exchange id m', E.gateway id with
        | some r, some g => do
          let k ← signingKey g
          if (Message.verify E.P k r).2 then .ok r else .err
        | _, _ => .err)
    | (_, false) => ([], .err)
  | .err => ([], .err)
  | .panic => ([], .panic)

/-- clientapi/dht_discover_handler.go:61-71: the identifiers of the gateways to ask. -/
def nodeIds : List Record → Option (List Id)
  | [] => some []
  | r :: rs =>
    match Ids.fromHex r.nodeID, nodeIds rs with
    | some id, some ids => some (id :: ids)
    | _, _ => none

/-- clientapi/dht_discover_handler.go:77-88: the gateways in turn. -/
def dhtLoop (E : Env Sig) (c : Core Sig) (cid : Id) : List Id → Contacts → List (Out Sig) × Option Contacts
  | [], k => ([], some k)
  | id :: ids, k =>
    match request E c id (encode gatewayDHTDiscoverRequest E.pr (some c.id, some cid, 1, E.now + 10, [], [])) with
    | (out, .panic) => (out ++ [.panic], none)
    | (out, r) =>
      let l := dhtLoop E c cid ids (k.add id r)
      (out ++ l.1, l.2)

/-- clientapi/dht_discover_handler.go:36-109. -/
def dht (E : Env Sig) (c : Core Sig) (m : Msg) : Core Sig × List (Out Sig) :=
  match decode clientDHTDiscoverRequest m with
  | .panic => (c, [.panic])
  | .err => (c, [.status 400])
  | .ok (cid, nonce, ttl, num, _, _, _) =>
    if E.now > ttl then (c, [])
    else
      match cid with
      | none => (c, [.panic])
      | some id =>
        match E.near id num with
        | none => (c, [.status 400])
        | some rs =>
          match nodeIds rs with
          | none => (c, [.status 400])
          | some ids =>
            match dhtLoop E c id ids ⟨[], [], []⟩ with
            | (out, none) => (c, out)
            | (out, some k) => (c, out ++ respond E c clientDHTDiscoverResponse (.status 500) (.status 500)
                (k.contacted, k.responses, k.missed, nonce, false, []))

/-- clientapi/dht_discover_handler_v2.go:93-108 with 139-162 `topupAndPay` (the same as the client's, `Payment.topupAndPay`):
channel and voucher, or the status of the failure. -/
def payPeer (E : Env Sig) (c : Core Sig) (recipient : Addr) (amount : Int) : Core Sig × Except Nat (Addr × Voucher Sig) :=
  match Payment.pay E.signVoucher c.payment recipient 0 amount with
  | (p, .error) => ({ c with payment := p }, .error 400)
  | (p, .paid ch v) => ({ c with payment := p }, .ok (ch, v))
  | (p, .needTopup) =>
    match Payment.topupAndPay E.signVoucher c.topupAmount p recipient 0 amount (E.topups recipient 0) (E.topups recipient 1) with
    | (p', .paid ch v) => ({ c with payment := p' }, .ok (ch, v))
    | (p', _) => ({ c with payment := p' }, .error 500)

/-- clientapi/dht_discover_handler_v2.go:83-116. -/
def dhtV2Loop (E : Env Sig) (cid : Id) : Core Sig → List Record → Contacts → Core Sig × List (Out Sig) × Option Contacts
  | c, [], k => (c, [], some k)
  | c, r :: rs, k =>
    match Ids.fromHex r.nodeID with
    | none => (c, [.status 400], none)
    | some id =>
      match payPeer E c (String.ofList r.address) c.searchPrice with
      | (c', .error code) => (c', [.status code], none)
      | (c', .ok (ch, v)) =>
        match request E c' id (encode gatewayDHTDiscoverRequestV2 E.pr (some c.id, some cid, 1, E.now + 10, ch.toList, E.showVoucher v)) with
        | (out, .panic) => (c', .paid (String.ofList r.address) v :: out ++ [.panic], none)
        | (out, resp) =>
          let l := dhtV2Loop E cid c' rs (k.add id resp)
          (l.1, .paid (String.ofList r.address) v :: out ++ l.2.1, l.2.2)

/-- clientapi/dht_discover_handler_v2.go:35-137. -/
def dhtV2 (E : Env Sig) (c : Core Sig) (m : Msg) : Core Sig × List (Out Sig) :=
  match decode clientDHTDiscoverRequestV2 m with
  | .panic => (c, [.panic])
  | .err => (c, [.status 400])
  | .ok (cid, nonce, ttl, num, _, channel, voucher) =>
    if E.now > ttl then (c, [])
    else
      match cid with
      | none => (c, [.panic])
      | some id =>
        match E.near id num with
        | none => (c, [.status 400])
        | some rs =>
          match receive E c channel voucher with
          | (c1, .panic) => (c1, [.panic])
          | (c1, .error) => (c1, [.status 400])
          | (c1, .credited amount) =>
            let warn : List (Out Sig) := if amount < c.searchPrice * num then [.status 500] else []
            match dhtV2Loop E id c1 rs ⟨[], [], []⟩ with
            | (c2, out, none) => (c2, warn ++ out)
            | (c2, out, some k) => (c2, warn ++ out ++ respond E c2 clientDHTDiscoverResponseV2 (.status 500) (.status 500)
                (k.contacted, k.responses, k.missed, nonce, false, []))

/-- clientapi/dht_discover_offer_handler.go:71-92: after a top-up it is the price of a search that is paid, and if that too needs
a top-up nothing is (`none`). -/
def payPeerOffer (E : Env Sig) (c : Core Sig) (recipient : Addr) (amount : Int) : Core Sig × Except Nat (Option (Addr × Voucher Sig)) :=
  match Payment.pay E.signVoucher c.payment recipient 0 amount with
  | (p, .error) => ({ c with payment := p }, .error 400)
  | (p, .paid ch v) => ({ c with payment := p }, .ok (some (ch, v)))
  | (p, .needTopup) =>
    match Payment.topup p recipient c.topupAmount (E.topups recipient 0) with
    | (p1, false) => ({ c with payment := p1 }, .error 400)
    | (p1, true) =>
      match Payment.pay E.signVoucher p1 recipient 0 c.searchPrice with
      | (p2, .error) => ({ c with payment := p2 }, .error 400)
      | (p2, .paid ch v) => ({ c with payment := p2 }, .ok (some (ch, v)))
      | (p2, .needTopup) => ({ c with payment := p2 }, .ok none)

/-- clientapi/dht_discover_offer_handler.go:66-102; a missing list of digests is an index out of range, an unknown gateway a nil
dereference. -/
def dhtOfferLoop (E : Env Sig) (cid : Option Id) (nonce : Int) : Core Sig → List Id → List (List (List Char)) → Contacts →
    Core Sig × List (Out Sig) × Option Contacts
  | c, [], _, k => (c, [], some k)
  | c, _ :: _, [], _ => (c, [.panic], none)
  | c, id :: ids, ds :: dss, k =>
    match E.gateway id with
    | none => (c, [.panic], none)
    | some g =>
      match payPeerOffer E c (String.ofList g.address) ((ds.length : Int) * c.offerPrice) with
      | (c', .error code) => (c', [.status code], none)
      | (c', .ok pay) =>
        let spent := (pay.map (fun p => Out.paid (String.ofList g.address) p.2)).toList
        match request E c' id (encode gatewayDHTDiscoverOfferRequest E.pr
            (cid, nonce, ds, (pay.map (fun p => p.1.toList)).getD [], (pay.map (fun p => E.showVoucher p.2)).getD [])) with
        | (out, .panic) => (c', spent ++ out ++ [.panic], none)
        | (out, resp) =>
          let l := dhtOfferLoop E cid nonce c' ids dss (k.add id resp)
          (l.1, spent ++ out ++ l.2.1, l.2.2)

/-- clientapi/dht_discover_offer_handler.go:31-123. -/
def dhtOffer (E : Env Sig) (c : Core Sig) (m : Msg) : Core Sig × List (Out Sig) :=
  match decode clientDHTDiscoverOfferRequest m with
  | .panic => (c, [.panic])
  | .err => (c, [.status 400])
  | .ok (cid, nonce, dss, ids, channel, voucher) =>
    match receive E c channel voucher with
    | (c1, .panic) => (c1, [.panic])
    | (c1, .error) => (c1, [.status 400])
    | (c1, .credited amount) =>
      let warn : List (Out Sig) := if amount < ((dss.map List.length).sum : Int) * c.offerPrice then [.status 500] else []
      match dhtOfferLoop E cid nonce c1 ids dss ⟨[], [], []⟩ with
      | (c2, out, none) => (c2, warn ++ out)
      | (c2, out, some k) => (c2, warn ++ out ++ respond E c2 clientDHTDiscoverOfferResponse (.status 500) (.status 500)
          (cid, nonce, k.contacted, k.responses, false, []))

/-! ## gatewayapi -/

/-- gatewayapi/dht_discover_handler.go:44-60 and the same lines of the other handlers: the registered key of the sender, under
which the request verifies.  A nil identifier is dereferenced by the register manager. -/
def senderKey (E : Env Sig) (look : Id → Option Record) (id : Option Id) (m : Msg) : Res KeyPair :=
  match id with
  | none => .panic
  | some id =>
    match look id with
    | none => .err
    | some r => do
      let k ← signingKey r
      if (Message.verify E.P k m).2 then .ok k else .err

/-- gatewayapi/dht_discover_handler.go:34-99. -/
def peerDht (E : Env Sig) (c : Core Sig) (m : Msg) : Core Sig × List (Out Sig) :=
  match decode gatewayDHTDiscoverRequest m with
  | .panic => (c, [.panic])
  | .err => (c, [.invalid])
  | .ok (gw, cid, nonce, ttl, _, _) =>
    match senderKey E E.gateway gw m with
    | .panic => (c, [.panic])
    | .err => (c, [.invalid])
    | .ok _ =>
      if E.now > ttl then (c, [.invalid])
      else
        match cid with
        | none => (c, [.panic])
        | some id =>
          match getOffers E c id with
          | .ok (offers, found) =>
            (c, respond E c gatewayDHTDiscoverResponse .invalid .invalid
              (some id, nonce, found, offers.map (fun o => Offer.subOffer E.H o id), offers.map (fun _ => false)))
          | _ => (c, [.panic])

/-- gatewayapi/dht_discover_handler_v2.go:29-103. -/
def peerDhtV2 (E : Env Sig) (c : Core Sig) (m : Msg) : Core Sig × List (Out Sig) :=
  match decode gatewayDHTDiscoverRequestV2 m with
  | .panic => (c, [.panic])
  | .err => (c, [.invalid])
  | .ok (gw, cid, nonce, ttl, channel, voucher) =>
    match senderKey E E.gateway gw m with
    | .panic => (c, [.panic])
    | .err => (c, [.invalid])
    | .ok _ =>
      if E.now > ttl then (c, [.invalid])
      else
        match receive E c channel voucher with
        | (c', .panic) => (c', [.panic])
        | (c', .error) => (c', [.invalid])
        | (c', .credited amount) =>
          match cid with
          | none => (c', [.panic])
          | some id =>
            match getOffers E c id with
            | .ok (offers, found) =>
              match digests E offers with
              | .ok ds =>
                if amount < c.searchPrice then
                  (c', respond E c gatewayDHTDiscoverResponseV2 .invalid .invalid (some id, nonce, found, ds, offers.map (fun _ => false), true, channel))
                else
                  (c', respond E c gatewayDHTDiscoverResponseV2 .invalid .invalid (some id, nonce, found, ds, offers.map (fun _ => false), false, []))
              | _ => (c', [.panic])
            | _ => (c', [.panic])

/-- gatewayapi/dht_discover_offer_handler.go:29-106; line 65 multiplies the configured price itself. -/
def peerDhtOffer (E : Env Sig) (c : Core Sig) (m : Msg) : Core Sig × List (Out Sig) :=
  match decode gatewayDHTDiscoverOfferRequest m with
  | .panic => (c, [.panic])
  | .err => (c, [.invalid])
  | .ok (cid, nonce, ds, channel, voucher) =>
    match receive E c channel voucher with
    | (c1, .panic) => (c1, [.panic])
    | (c1, .error) => (c1, [.invalid])
    | (c1, .credited amount) =>
      let expected := c.offerPrice * ds.length
      let c2 := { c1 with offerPrice := expected }
      match offersByDigest E c cid ds with
      | .ok os =>
        if amount < expected then
          (c2, respond E c gatewayDHTDiscoverOfferResponse .invalid .invalid (cid, nonce, true, os, ds.map (fun _ => true), true, channel))
        else
          (c2, respond E c gatewayDHTDiscoverOfferResponse .invalid .invalid (cid, nonce, true, os, ds.map (fun _ => true), false, []))
      | _ => (c2, [.panic])

/-! ## providerapi, and the listing that the gateway asks for -/

/-- What happens to one offer of a publish request, providerapi/publish_dht_offer_handler.go:61-69. -/
def storeOne (E : Env Sig) (k : KeyPair) (db : SqlOffer.DB) (o : CidOffer) : Res (SqlOffer.DB × Bool) :=
  match Offer.verify E.P k o with
  | .panic => .panic
  | .err => .err
  | .ok _ => SqlOffer.addDht E.H512 (E.dbFails o) db o

/-- providerapi/publish_dht_offer_handler.go:60-70: the database afterwards, and whether all were stored. -/
def storeAll (E : Env Sig) (k : KeyPair) : SqlOffer.DB → List CidOffer → SqlOffer.DB × Res Unit
  | db, [] => (db, .ok ())
  | db, o :: os =>
    match storeOne E k db o with
    | .panic => (db, .panic)
    | .err => (db, .err)
    | .ok (db', false) => (db', .err)
    | .ok (db', true) => storeAll E k db' os

/-- providerapi/publish_dht_offer_handler.go:32-92. -/
def publishDht (E : Env Sig) (c : Core Sig) (m : Msg) : Core Sig × List (Out Sig) :=
  match decode (providerPublishDHTOfferRequest E.H) m with
  | .panic => (c, [.panic])
  | .err => (c, [.invalid])
  | .ok (pid, nonce, offers) =>
    match senderKey E E.provider pid m with
    | .panic => (c, [.panic])
    | .err => (c, [.invalid])
    | .ok k =>
      match storeAll E k c.db offers with
      | (db, .panic) => ({ c with db := db }, [.panic])
      | (db, .err) => ({ c with db := db }, [.invalid])
      | (db, .ok _) =>
        match Crypto.signMessage E.P c.key c.keyVersion (m.body.getD []) with
        | none => ({ c with db := db }, [.invalid])
        | some sig => ({ c with db := db }, respond E c providerPublishDHTOfferResponse .invalid .invalid (nonce, sig))

/-- providerapi/publish_group_offer_handler.go:28-85. -/
def publishGroup (E : Env Sig) (c : Core Sig) (m : Msg) : Core Sig × List (Out Sig) :=
  match decode (providerPublishGroupOfferRequest E.H) m with
  | .ok (pid, _, some o) =>
    match senderKey E E.provider pid m with
    | .panic => (c, [.panic])
    | .err => (c, [.invalid])
    | .ok k =>
      match Offer.verify E.P k o with
      | .panic => (c, [.panic])
      | .err => (c, [.invalid])
      | .ok _ =>
        match SqlOffer.addGroup E.H512 (E.dbFails o) c.db o with
        | .ok (db, false) => ({ c with db := db }, [.invalid])
        | .ok (db, true) =>
          match Offer.digest E.H512 o with
          | .ok d => ({ c with db := db }, respond E c providerPublishGroupOfferResponse .invalid .invalid (some c.id, Offer.encodeDigest d))
          | _ => ({ c with db := db }, [.panic])
        | _ => (c, [.panic])
  | .err => (c, [.invalid])
  | _ => (c, [.panic])

/-- gatewayapi/list_dht_offer_requester.go:113-123: offers that do not verify or cannot be stored are skipped; the flag is false after a panic. -/
def takeOffers (E : Env Sig) (k : KeyPair) : SqlOffer.DB → List CidOffer → SqlOffer.DB × Bool
  | db, [] => (db, true)
  | db, o :: os =>
    match storeOne E k db o with
    | .panic => (db, false)
    | .err => takeOffers E k db os
    | .ok (db', _) => takeOffers E k db' os

/-- gatewayapi/list_dht_offer_requester.go:101-135: the acknowledgements, `.err` if the request is given up. -/
def takeMessages (E : Env Sig) (c : Core Sig) (k : KeyPair) : SqlOffer.DB → List Msg → List Msg → SqlOffer.DB × Res (List Msg)
  | db, [], acks => (db, .ok acks)
  | db, m :: ms, acks =>
    match Message.verify E.P k m with
    | (_, false) => takeMessages E c k db ms acks
    | (m, true) =>
      match decode (providerPublishDHTOfferRequest E.H) m with
      | .panic => (db, .panic)
      | .err => takeMessages E c k db ms acks
      | .ok (_, nonce, offers) =>
        match takeOffers E k db offers with
        | (db', false) => (db', .panic)
        | (db', true) =>
          match Crypto.signMessage E.P c.key c.keyVersion (m.body.getD []) with
          | none => (db', .err)
          | some sig =>
            match encode providerPublishDHTOfferResponse E.pr (nonce, sig) with
            | .ok ack => takeMessages E c k db' ms (acks ++ [ack])
            | .err => (db', .err)
            | .panic => (db', .panic)

/-- gatewayapi/list_dht_offer_requester.go:31-146 `RequestListCIDOffer`; `req` is the encoded request.  The flag tells whether the
requester returns without error. -/
def listOffers (E : Env Sig) (c : Core Sig) (pid : Id) (req : Res Msg) : Core Sig × List (Out Sig) × Bool :=
  match req with
  | .panic => (c, [.panic], false)
  | .err => (c, [], false)
  | .ok req =>
    match Message.sign E.P c.key c.keyVersion req with
    | (_, false) => (c, [], false)
    | (req, true) =>
      match E.exchange pid req, E.provider pid with
      | some resp, some r =>
        match signingKey r with
        | .ok k =>
          if (Message.verify E.P k resp).2 then
            match decode gatewayListDHTOfferResponse resp with
            | .panic => (c, [.asked pid req, .panic], false)
            | .err => (c, [.asked pid req], false)
            | .ok ms =>
              match takeMessages E c k c.db ms [] with
              | (db, .panic) => ({ c with db := db }, [.asked pid req, .panic], false)
              | (db, .err) => ({ c with db := db }, [.asked pid req], false)
              | (db, .ok acks) =>
                match encode gatewayListDHTOfferAck E.pr acks with
                | .ok ack =>
                  match Message.sign E.P c.key c.keyVersion ack with
                  | (ack, true) => ({ c with db := db }, [.asked pid req, .message ack], true)
                  | (_, false) => ({ c with db := db }, [.asked pid req], false)
                | _ => ({ c with db := db }, [.asked pid req], false)
          else (c, [.asked pid req], false)
        | .err => (c, [.asked pid req], false)
        | .panic => (c, [.asked pid req, .panic], false)
      | _, _ => (c, [.asked pid req], false)

end FcRetrieval.Gateway
