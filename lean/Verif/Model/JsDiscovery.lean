import Verif.Model.ClientJs
import Verif.Model.JsPayment
/-!
# Model of offer discovery in the JavaScript client (`client-js/src/FilecoinRetrievalClient.ts:103-319`)

`none` is an exception.  The payment manager is a public field which the constructor sets to an object without methods: it is `none` until the caller sets
it.  Network, clock and random numbers are parameters; `await`s of the network are steps of one call, and nothing else touches the payment manager during it.
-/

namespace FcRetrieval.Js
open FcRetrieval.Crypto (Prims)
open FcRetrieval.Register (Record)

/-- config/settings.config.ts:41-43, the prices. -/
structure Prices where
  search : Nat
  topup : Nat

/-- cid/cid.interface.ts:1-3, and what its `toString()` gives. -/
structure Cid where
  json : Json
  text : List Char

/-- The signing library and the payment manager with the chain. -/
structure Purse where
  sign : JsPay.Voucher → Option (List Char)
  world : JsPay.World

/-- FilecoinRetrievalClient.ts:118-123, 189-194, 274-279: pay, and if the manager asks for it start a top-up, which is not awaited, and pay again. -/
def charge (p : Purse) (payTo topupFor : List Char) (amount topup : Nat) : Purse × JsPay.PayOut :=
  match JsPay.pay p.sign p.world.mgr payTo 0 amount with
  | (_, .topup) =>
    let w := JsPay.step p.sign p.world (.topup topupFor topup)
    ({ p with world := JsPay.step p.sign w (.pay payTo 0 amount) }, (JsPay.pay p.sign w.mgr payTo 0 amount).2)
  | (_, o) => ({ p with world := JsPay.step p.sign p.world (.pay payTo 0 amount) }, o)

/-- `payResponse.voucher` (payment_manager.class.ts:145, 151, 175, 184). -/
def voucherText : JsPay.PayOut → List Char
  | .paid _ t _ => t
  | _ => []

/-- clientapi/standard_discover_requester_v2.ts:43-56 `encodeClientStandardDiscoverRequestV2`: the body is always empty. -/
def encodeSearch : FcrMsg := ofMembers [("message_type", .num 108), ("message_body", .str (b64Encode []))]

/-- clientapi/standard_discover_requester_v2.ts:8-41 `requestStandardDiscoverV2`: whether it returns; it then returns `undefined`. -/
def requestSearch (P : Prims) (net : Net) (g : Record) : Bool :=
  match sendMessage net g.netClient encodeSearch with
  | none => false
  | some r =>
    match publicKey g.signingKey with
    | none => false
    | some pk => (verify P pk r).isSome

/-- fcrMessages/client_standard_discover_offer.message.ts:23-44 `encodeClientStandardDiscoverOfferRequest`; the digests and the channel
(`payResponse.paychAddrs`, which the manager calls `paychAddr`) are `undefined` and left out. -/
def encodeOffers (cid : Json) (nonce ttl : Int) (voucher : List Char) : FcrMsg :=
  ofMembers [("message_type", .num 110), ("message_body", .str (b64Encode (utf8Bytes (stringify (.obj
    [("pieceCID", cid), ("nonce", .num nonce), ("ttl", .num ttl), ("voucher", .str voucher)])))))]

/-- fcrMessages/client_standard_discover_offer.message.ts:46-62 `decodeClientStandardDiscoverOfferResponse`: the content identifier, the nonce and the
offers.  `JSON.parse` makes a string of what it gets; the body is not taken out of base64 first. -/
def decodeOffers (m : FcrMsg) : Option (Option Json × Option Json × Option Json) :=
  match m.type with
  | some (.num 111) =>
    match m.body with
    | none => none
    | some b =>
      match parseJson (toText b) with
      | none => none
      | some j =>
        match prop "pieceCID" j, prop "nonce" j, prop "subCIDOffers" j with
        | some c, some n, some o => some (c, n, o)
        | _, _, _ => none
  | _ => none

/-- clientapi/standard_discover_offer_requester.ts:10-58 `requestStandardDiscoverOffer`. -/
def requestOffers (P : Prims) (net : Net) (g : Record) (cid : Cid) (nonce ttl : Int) (voucher : List Char) : Option (Option Json) :=
  match sendMessage net g.netClient (encodeOffers cid.json nonce ttl voucher) with
  | none => none
  | some r =>
    match publicKey g.signingKey with
    | none => none
    | some pk =>
      match verify P pk r with
      | some true =>
        match decodeOffers r with
        | some (some .null, _, _) => none
        | some (some c, some (.num k), o) => if toText c ≠ cid.text then none else if nonce ≠ k then none else some o
        | _ => none
      | _ => none

/-- FilecoinRetrievalClient.ts:300-318: the loop over the offers.  What `JSON.parse` has made has no method `getProviderID`, so the first turn throws. -/
def collect : Option Json → Option (List Json)
  | some (.arr []) => some []
  | some (.str []) => some []
  | _ => none

/-- What one call of `findOffersStandardDiscoveryV2` meets. -/
structure Trip where
  search : Net
  offers : Net
  nonce : Int
  nowMs : Int

/-- FilecoinRetrievalClient.ts:268-319 `findOffersStandardDiscoveryV2`; `some none` is `undefined`. -/
def findStandard (P : Prims) (S : Prices) (c : Client) (purse : Option Purse) (t : Trip) (cid : Cid) (gateway : List Char) : Option Purse × Option (Option (List Json)) :=
  match mget c.active gateway with
  | none => (purse, some none)
  | some g =>
    match purse with
    | none => (none, none)
    | some p =>
      let x := charge p g.address g.nodeID S.search S.topup
      (some x.1,
        if requestSearch P t.search g then
          match requestOffers P t.offers g cid t.nonce t.nowMs (voucherText x.2) with
          | none => none
          | some o => (collect o).map some
        else none)

/-- clientapi/find_offers_dht_discovery_v2.ts:12-27 `requestDHTDiscoverV2`: the gateways contacted and their answers. -/
def requestDHT : List (List Char × FcrMsg) := []

/-- clientapi/request_dht_offer_discover.ts:11-21 `requestDHTOfferDiscover`: the offers by gateway. -/
def requestDHTOffers : List (List Char × List Json) := []

/-- FilecoinRetrievalClient.ts:145-181: the loop over the answers; `true` is a `return` (which line 168 does: what
find_offers_dht_discovery_v2.ts:37-39 has decoded has no `found`; before it, line 149 passes over every gateway, as 218-220 calls every registration invalid). -/
def dhtAnswers : List (List Char × FcrMsg) → Bool
  | [] => false
  | _ :: l => dhtAnswers l

/-- FilecoinRetrievalClient.ts:103-216 `findOffersDHTDiscoveryV2`. -/
def findDHT (S : Prices) (c : Client) (purse : Option Purse) (gateway : List Char) (numDHT : Nat) : Option Purse × Option (List (List Char × List Json)) :=
  match mget c.active gateway with
  | none => (purse, some [])
  | some g =>
    match purse with
    | none => (none, none)
    | some p =>
      match charge p g.address g.address (numDHT * S.search) S.topup with
      | (p1, .topup) => (some p1, some [])
      | (p1, _) =>
        if dhtAnswers requestDHT then (some p1, some [])
        else
          match charge p1 g.address g.address (numDHT * S.search) S.topup with
          | (p2, .topup) => (some p2, some [])
          | (p2, _) => (some p2, some (requestDHTOffers.foldl (fun m e => mset m e.1 e.2) []))

/-- fcrMessages/client_dht_offer_ack.ts:29-31 `decodeClientDHTOfferAckResponse`: the member `found`. -/
def ackFound (_ : FcrMsg) : Option Bool := none

/-- FilecoinRetrievalClient.ts:222-265 `FindDHTOfferAck`, with what the register returns for the provider; the request is the empty object
(client_dht_offer_ack.ts:18-20).  From line 248 on it throws: `found` is the constant `false`. -/
def findAck (P : Prims) (net : Net) (provider : Option Record) : Option Bool :=
  match provider with
  | none => none
  | some r =>
    match publicKey r.signingKey with
    | none => none
    | some pk =>
      match post net r.netClient (stringify (.obj [])) with
      | none => none
      | some m =>
        match verify P pk m with
        | none => none
        | some _ => if ackFound m = some true then none else some false

end FcRetrieval.Js
