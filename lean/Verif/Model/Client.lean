import Verif.Model.Codecs
import Verif.Model.Payment
import Verif.Model.Register
/-!
# Model of the retrieval client (`client/pkg`)

One call at a time, run to its end; `Model/ClientConc` has the interleavings of the calls that manage the gateways.  The messages are
`Model/Codecs`, signatures `Model/Message` and `Model/Crypto`, offers `Model/Offer`, payments `Model/Payment`.  What the register manager
answers, the clock, the random numbers, the chain and what other nodes reply are parameters: `Env`.

A call gives the client afterwards, what it did that can be seen from outside, and its result: `.err` for an error, `.panic` for a panic,
which ends the program that uses the library.  Log messages are not modelled, and what is returned beside an error is not either.
-/

namespace FcRetrieval.Client
open FcRetrieval.Ids (Id)
open FcRetrieval.Merkle (Hash)
open FcRetrieval.Crypto (Prims KeyPair)
open FcRetrieval.Message (Msg Protocol)
open FcRetrieval.Offer (CidOffer SubOffer)
open FcRetrieval.Payment (Addr Voucher VBody TopupChain)
open FcRetrieval.Register (Record)
open FcRetrieval.Wire (Codec encode decode)
open FcRetrieval.Codecs

/-- What a call depends on besides its arguments and the client. -/
structure Env (Sig : Type) where
  /-- Keccak-256, for the Merkle trees. -/
  H : Hash
  P : Prims
  /-- The protocol versions written into every message. -/
  pr : Protocol
  /-- The clock, in seconds since 1970. -/
  now : Int
  /-- The `n`-th random number of the call. -/
  nonce : Nat → Int
  /-- The 32 random bytes of an establishment with this gateway. -/
  challenge : Id → Bytes
  /-- The register manager: `GetGateway`, `GetProvider`, `GetAllGateways` in the order of this call. -/
  gateway : Id → Option Record
  provider : Id → Option Record
  gateways : Option (List Record)
  /-- What is read after the `n`-th message of the call is sent to the node with this network address; `none` if it cannot be reached,
  answers with a status other than 200, or with something that is not a message (request.go, `SendMessage`). -/
  exchange : Nat → List Char → Msg → Option Msg
  /-- What setting up the payment manager gives. -/
  newPayments : Option (Payment.Mgr Sig)
  signVoucher : VBody → Option Sig
  /-- Vouchers as text. -/
  showVoucher : Voucher Sig → List Char
  /-- What the chain does with the top-ups of the `n`-th payment of the call. -/
  topups : Nat → Nat → TopupChain

/-- client_settings.go:26-42, the settings that the calls use. -/
structure Settings where
  clientID : Id
  ttl : Int
  searchPrice : Int
  offerPrice : Int
  topUpAmount : Int

/-- filecoin_retrieval_client.go:45-62. -/
structure Client (Sig : Type) where
  settings : Settings
  /-- `GatewaysToUse`. -/
  toUse : List (List Char × Record)
  /-- `ActiveGateways`. -/
  active : List (List Char × Record)
  /-- `paymentMgr`, nil until it is set up. -/
  payment : Option (Payment.Mgr Sig)

/-- What is seen from outside. -/
inductive Out (Sig : Type) where
  /-- A message sent, or tried to be sent, to this network address. -/
  | asked (address : List Char) (m : Msg)
  /-- A voucher issued for this amount. -/
  | paid (recipient : Addr) (amount : Int) (voucher : Voucher Sig)

variable {Sig : Type}

/-- filecoin_retrieval_client.go:65-76 `NewFilecoinRetrievalClient`. -/
def newClient (s : Settings) : Client Sig := ⟨s, [], [], none⟩

/-! ## register_validation.go -/

/-- register_validation.go:25-66 `validateGatewayInfo`; a key without any text is an index out of range. -/
def validGateway (r : Record) : Res Bool :=
  if r.nodeID = [] ∨ r.address = [] ∨ r.netGateway = [] ∨ r.netProvider = [] ∨ r.netClient = [] ∨ r.netAdmin = [] ∨ r.regionCode = [] then .ok false
  else
    match Crypto.decodePublicKey r.rootSigningKey with
    | .panic => .panic
    | .err => .ok false
    | .ok _ =>
      match Crypto.decodePublicKey r.signingKey with
      | .panic => .panic
      | .err => .ok false
      | .ok _ => .ok true

/-- register_validation.go:70-107 `validateProviderInfo`. -/
def validProvider (r : Record) : Res Bool :=
  if r.nodeID = [] ∨ r.address = [] ∨ r.netGateway = [] ∨ r.netClient = [] ∨ r.netAdmin = [] ∨ r.regionCode = [] then .ok false
  else
    match Crypto.decodePublicKey r.rootSigningKey with
    | .panic => .panic
    | .err => .ok false
    | .ok _ =>
      match Crypto.decodePublicKey r.signingKey with
      | .panic => .panic
      | .err => .ok false
      | .ok _ => .ok true

/-! ## clientapi: the requesters -/

/-- The common part of the requesters: send, get the key from the record, verify the answer (e.g. establishment_requester.go:42-62). -/
def ask (E : Env Sig) (n : Nat) (r : Record) (request : Res Msg) : List (Out Sig) × Res Msg :=
  match request with
  | .panic => ([], .panic)
  | .err => ([], .err)
  | .ok m => ([.asked r.netClient m], do
      let a ← Res.ofOption (E.exchange n r.netClient m)
      let k ← Crypto.decodePublicKey r.signingKey
      if (Message.verify E.P k a).2 then .ok a else .err)

/-- establishment_requester.go:29-77 `RequestEstablishment`. -/
def requestEstablishment (E : Env Sig) (n : Nat) (r : Record) (challenge : Bytes) (client : Id) (ttl : Int) : List (Out Sig) × Res Unit :=
  if challenge.length ≠ 32 then ([], .err)
  else
    let a := ask E n r (encode clientEstablishmentRequest E.pr (some client, b64Encode challenge, ttl))
    (a.1, do
      let (gw, echo) ← decode clientEstablishmentResponse (← a.2)
      let gw ← deref gw
      if r.nodeID ≠ Ids.toStr gw then .err
      else if echo ≠ b64Encode challenge then .err
      else .ok ())

/-- standard_discover_requester.go:29-74 `RequestStandardDiscover`. -/
def requestStandard (E : Env Sig) (n : Nat) (r : Record) (cid : Id) (nonce ttl : Int) (channel voucher : List Char) :
    List (Out Sig) × Res (List SubOffer) :=
  let a := ask E n r (encode clientStandardDiscoverRequest E.pr (some cid, nonce, ttl, channel, voucher))
  (a.1, do
    let (c, nonce', _, offers, _) ← decode clientStandardDiscoverResponse (← a.2)
    let c ← deref c
    if Ids.toStr c ≠ Ids.toStr cid then .err
    else if nonce ≠ nonce' then .err
    else .ok offers)

/-- standard_discover_requester_v2.go:27-74 `RequestStandardDiscoverV2`: the digests and whether payment is required. -/
def requestStandardV2 (E : Env Sig) (n : Nat) (r : Record) (cid : Id) (nonce ttl : Int) (channel voucher : List Char) :
    List (Out Sig) × Res (List (List Char) × Bool) :=
  let a := ask E n r (encode clientStandardDiscoverRequestV2 E.pr (some cid, nonce, ttl, channel, voucher))
  (a.1, do
    let (c, nonce', _, digests, _, required, _) ← decode clientStandardDiscoverResponseV2 (← a.2)
    let c ← deref c
    if Ids.toStr c ≠ Ids.toStr cid then .err
    else if nonce ≠ nonce' then .err
    else if required then .ok ([], true)
    else .ok (digests, false))

/-- standard_discover_offer_requester.go:30-79 `RequestStandardDiscoverOffer`. -/
def requestStandardOffer (E : Env Sig) (n : Nat) (r : Record) (cid : Id) (nonce ttl : Int) (digests : List (List Char)) (channel voucher : List Char) :
    List (Out Sig) × Res (List SubOffer) :=
  let a := ask E n r (encode clientStandardDiscoverOfferRequest E.pr (some cid, nonce, ttl, digests, channel, voucher))
  (a.1, do
    let (c, nonce', _, offers, _, required, _) ← decode clientStandardDiscoverOfferResponse (← a.2)
    let c ← deref c
    if Ids.toStr c ≠ Ids.toStr cid then .err
    else if nonce ≠ nonce' then .err
    else if required then .err
    else .ok offers)

/-- dht_discover_requester.go:30-79 `RequestDHTDiscover`: the gateways contacted with their answers. -/
def requestDht (E : Env Sig) (n : Nat) (r : Record) (cid : Id) (nonce ttl num : Int) (channel voucher : List Char) :
    List (Out Sig) × Res (List (Id × Msg)) :=
  let a := ask E n r (encode clientDHTDiscoverRequest E.pr (some cid, nonce, ttl, num, false, channel, voucher))
  (a.1, do
    let (contacted, answers, _, nonce', required, _) ← decode clientDHTDiscoverResponse (← a.2)
    if nonce' ≠ nonce then .err
    else if contacted.length ≠ answers.length then .err
    else if required then .err
    else .ok (contacted.zip answers))

/-- dht_discover_requester_v2.go:28-76 `RequestDHTDiscoverV2`: the gateways contacted with their answers, and the channel to top up if
payment is required. -/
def requestDhtV2 (E : Env Sig) (n : Nat) (r : Record) (cid : Id) (nonce ttl num : Int) (channel voucher : List Char) :
    List (Out Sig) × Res (List (Id × Msg) × Option (List Char)) :=
  let a := ask E n r (encode clientDHTDiscoverRequestV2 E.pr (some cid, nonce, ttl, num, false, channel, voucher))
  (a.1, do
    let (contacted, answers, _, nonce', required, toTopup) ← decode clientDHTDiscoverResponseV2 (← a.2)
    if nonce' ≠ nonce then .err
    else if contacted.length ≠ answers.length then .err
    else .ok (contacted.zip answers, if required then some toTopup else none))

/-- dht_discover_offer_requester.go:84-100: the offers of each gateway.  An answer that does not decode is logged and leaves zero values. -/
def gatherOffers : List (Id × Msg) → Res (List (Id × List SubOffer))
  | [] => .ok []
  | (id, m) :: rest =>
    match decode gatewayDHTDiscoverOfferResponse m with
    | .panic => .panic
    | .err => gatherOffers rest
    | .ok (_, _, found, offers, _, required, _) =>
      if required then .err
      else do
        let l ← gatherOffers rest
        return if found && decide (offers.length > 0) then (id, offers) :: l else l

/-- dht_discover_offer_requester.go:41-102 `RequestDHTOfferDiscover`. -/
def requestDhtOffer (E : Env Sig) (n : Nat) (r : Record) (ids : List Id) (cid : Id) (nonce : Int) (digests : List (List (List Char)))
    (channel voucher : List Char) : List (Out Sig) × Res (List (Id × List SubOffer)) :=
  let a := ask E n r (encode clientDHTDiscoverOfferRequest E.pr (some cid, nonce, digests, ids, channel, voucher))
  (a.1, do
    let (_, _, ids', answers, required, _) ← decode clientDHTDiscoverOfferResponse (← a.2)
    if ids'.length ≠ answers.length then .err
    else if required then .err
    else gatherOffers (ids'.zip answers))

/-- dht_offer_ack_requester.go:29-64 `RequestDHTOfferAck`. -/
def requestAck (E : Env Sig) (n : Nat) (r : Record) (cid gw : Id) : List (Out Sig) × Res (Bool × Msg × Msg) :=
  let a := ask E n r (encode clientDHTOfferAckRequest E.pr (some cid, some gw))
  (a.1, do
    let (_, _, found, request, ack) ← decode clientDHTOfferAckResponse (← a.2)
    return (found, ← deref request, ← deref ack))

/-! ## the gateways to use and the active gateways -/

/-- filecoin_retrieval_client.go:108-121: the loop over the registered gateways. -/
def findLoop (location : List Char) (max : Int) : Int → List Record → List Id
  | _, [] => []
  | count, r :: rs =>
    if r.regionCode = location then
      match Ids.fromHex r.nodeID with
      | none => findLoop location max count rs
      | some id => if count + 1 ≥ max then [id] else id :: findLoop location max (count + 1) rs
    else findLoop location max count rs

/-- filecoin_retrieval_client.go:98-123 `FindGateways`. -/
def findGateways (E : Env Sig) (location : List Char) (max : Int) : Res (List Id) :=
  match E.gateways with
  | none => .err
  | some rs => .ok (findLoop location max 0 rs)

/-- filecoin_retrieval_client.go:126-155 `AddGatewaysToUse`; the count is `none` after a panic. -/
def addToUse (E : Env Sig) : Client Sig → List (Option Id) → Client Sig × Option Nat
  | c, [] => (c, some 0)
  | c, none :: ids => addToUse E c ids
  | c, some id :: ids =>
    match mget c.toUse (Ids.toStr id) with
    | some _ => addToUse E c ids
    | none =>
      match E.gateway id with
      | none => addToUse E c ids
      | some r =>
        match validGateway r with
        | .ok true =>
          let l := addToUse E { c with toUse := mset c.toUse (Ids.toStr id) r } ids
          (l.1, l.2.map (· + 1))
        | .panic => (c, none)
        | _ => addToUse E c ids

/-- filecoin_retrieval_client.go:159-176 `RemoveGatewaysToUse`. -/
def removeToUse : Client Sig → List (Option Id) → Client Sig × Option Nat
  | c, [] => (c, some 0)
  | c, none :: _ => (c, none)
  | c, some id :: ids =>
    match mget c.toUse (Ids.toStr id) with
    | none => removeToUse c ids
    | some _ =>
      let l := removeToUse { c with toUse := mdel c.toUse (Ids.toStr id), active := mdel c.active (Ids.toStr id) } ids
      (l.1, l.2.map (· + 1))

/-- filecoin_retrieval_client.go:180-191 `RemoveAllGatewaysToUse`. -/
def removeAllToUse (c : Client Sig) : Client Sig × Nat := ({ c with toUse := [], active := [] }, c.toUse.length)

/-- filecoin_retrieval_client.go:194-209, 276-291 `GetGatewaysToUse`, `GetActiveGateways`, in the order of the map. -/
def idsOf (m : List (List Char × Record)) : List Id := m.filterMap (fun e => Ids.fromHex e.1)

/-- filecoin_retrieval_client.go:213-245 `AddActiveGateways`; `n` counts the requests.  The text of an identifier is in lower case already. -/
def addActive (E : Env Sig) : Client Sig → Nat → List (Option Id) → Client Sig × List (Out Sig) × Option Nat
  | c, _, [] => (c, [], some 0)
  | c, _, none :: _ => (c, [], none)
  | c, n, some id :: ids =>
    match mget c.active (Ids.toStr id) with
    | some _ => addActive E c n ids
    | none =>
      match mget c.toUse (Ids.toStr id) with
      | none => addActive E c n ids
      | some r =>
        match requestEstablishment E n r (E.challenge id) c.settings.clientID (E.now + c.settings.ttl) with
        | (out, .panic) => (c, out, none)
        | (out, .err) =>
          let l := addActive E c (n + 1) ids
          (l.1, out ++ l.2.1, l.2.2)
        | (out, .ok _) =>
          let l := addActive E { c with active := mset c.active (Ids.toStr id) r } (n + 1) ids
          (l.1, out ++ l.2.1, l.2.2.map (· + 1))

/-- filecoin_retrieval_client.go:248-262 `RemoveActiveGateways`. -/
def removeActive : Client Sig → List (Option Id) → Client Sig × Option Nat
  | c, [] => (c, some 0)
  | c, none :: _ => (c, none)
  | c, some id :: ids =>
    match mget c.active (Ids.toStr id) with
    | none => removeActive c ids
    | some _ =>
      let l := removeActive { c with active := mdel c.active (Ids.toStr id) } ids
      (l.1, l.2.map (· + 1))

/-- filecoin_retrieval_client.go:265-273 `RemoveAllActiveGateways`. -/
def removeAllActive (c : Client Sig) : Client Sig × Nat := ({ c with active := [] }, c.active.length)

/-! ## discovery -/

/-- A registered record that passes the validation, its signing key (e.g. filecoin_retrieval_client.go:368-381). -/
def checkedKey (look : Id → Option Record) (valid : Record → Res Bool) (id : Id) : Res KeyPair :=
  match look id with
  | none => .err
  | some r =>
    match valid r with
    | .panic => .panic
    | .ok true => Crypto.decodePublicKey r.signingKey
    | _ => .err

/-- filecoin_retrieval_client.go:310-335, 393-418, 726-755: one offer verified; `.err` is "skip it".  An offer without provider is
a nil dereference in the register manager. -/
def checkOffer (E : Env Sig) (o : SubOffer) : Res Unit := do
  let k ← checkedKey E.provider validProvider (← deref o.providerID)
  let _ ← Offer.subVerify E.P k o
  Offer.verifyMerkleProof E.H o

/-- filecoin_retrieval_client.go:391-422: the offers that pass. -/
def checkOffers (E : Env Sig) : List SubOffer → Res (List SubOffer)
  | [] => .ok []
  | o :: os =>
    match checkOffer E o with
    | .panic => .panic
    | .err => checkOffers E os
    | .ok _ => do
      let l ← checkOffers E os
      return o :: l

/-- filecoin_retrieval_client.go:294-340 `FindOffersStandardDiscovery`: the offers are verified, and all are returned. -/
def findStandard (E : Env Sig) (c : Client Sig) (cid gw : Id) : List (Out Sig) × Res (List SubOffer) :=
  match mget c.active (Ids.toStr gw) with
  | none => ([], .err)
  | some r =>
    let a := requestStandard E 0 r cid (E.nonce 0) (E.now + c.settings.ttl) [] []
    (a.1, do
      let offers ← a.2
      let _ ← checkOffers E offers
      return offers)

/-- filecoin_retrieval_client.go:363-424: the answers of the gateways contacted; a later answer of the same gateway replaces the
earlier one. -/
def dhtAnswers (E : Env Sig) : List (List Char × List SubOffer) → List (Id × Msg) → Res (List (List Char × List SubOffer))
  | found, [] => .ok found
  | found, (id, m) :: rest =>
    match checkedKey E.gateway validGateway id with
    | .panic => .panic
    | .err => dhtAnswers E found rest
    | .ok k =>
      if (Message.verify E.P k m).2 then
        match decode gatewayDHTDiscoverResponse m with
        | .panic => .panic
        | .err => dhtAnswers E found rest
        | .ok (_, _, _, offers, _) => do
          let l ← checkOffers E offers
          dhtAnswers E (mset found (Ids.toStr id) l) rest
      else dhtAnswers E found rest

/-- filecoin_retrieval_client.go:343-427 `FindOffersDHTDiscovery`. -/
def findDht (E : Env Sig) (c : Client Sig) (cid gw : Id) (num : Int) : List (Out Sig) × Res (List (List Char × List SubOffer)) :=
  match mget c.active (Ids.toStr gw) with
  | none => ([], .err)
  | some r =>
    let a := requestDht E 0 r cid (E.nonce 0) (E.now + c.settings.ttl) num [] []
    (a.1, do dhtAnswers E [] (← a.2))

/-- filecoin_retrieval_client.go:78-94 `PaymentMgr`. -/
def paymentMgr (E : Env Sig) (c : Client Sig) : Client Sig :=
  match c.payment with
  | some _ => c
  | none => { c with payment := E.newPayments }

/-- filecoin_retrieval_client.go:768-791 `topupAndPay`, the `n`-th payment of the call. -/
def topupAndPay (E : Env Sig) (c : Client Sig) (n : Nat) (recipient : Addr) (amount : Int) :
    Client Sig × List (Out Sig) × Res (Addr × Voucher Sig) :=
  match (paymentMgr E c).payment with
  | none => (c, [], .panic)
  | some p =>
    match Payment.topupAndPay E.signVoucher c.settings.topUpAmount p recipient 0 amount (E.topups n 0) (E.topups n 1) with
    | (p', .paid ch v) => ({ c with payment := some p' }, [.paid recipient amount v], .ok (ch, v))
    | (p', _) => ({ c with payment := some p' }, [], .err)

/-- A payment and, if the balance is short, a top-up with a payment (filecoin_retrieval_client.go:444-453, 542-551, 659-672, 708-719); a
payment manager which is nil is dereferenced. -/
def payFor (E : Env Sig) (c : Client Sig) (n : Nat) (recipient : Addr) (amount : Int) : Client Sig × List (Out Sig) × Res (Addr × Voucher Sig) :=
  match c.payment with
  | none => (c, [], .panic)
  | some p =>
    match Payment.pay E.signVoucher p recipient 0 amount with
    | (p', .error) => ({ c with payment := some p' }, [], .err)
    | (p', .paid ch v) => ({ c with payment := some p' }, [.paid recipient amount v], .ok (ch, v))
    | (p', .needTopup) => topupAndPay E { c with payment := some p' } n recipient amount

/-- defaults.go:36. -/
def defaultSearchPrice : Int := 1000000000000000

/-- `s[:n]`. -/
def upTo {α : Type} (n : Int) (l : List α) : Res (List α) := if n < 0 then .panic else .ok (l.take n.toNat)

/-- filecoin_retrieval_client.go:483-530: the digests listed by the gateways contacted, `added` of which were taken before; `none` if one
of them has nothing, which ends the call. -/
def collect (E : Env Sig) (limit : Int) : Nat → List (Id × Msg) → Res (Option (List (List (List Char))))
  | _, [] => .ok (some [])
  | added, (id, m) :: rest =>
    match checkedKey E.gateway validGateway id with
    | .panic => .panic
    | .err => collect E limit added rest
    | .ok k =>
      if (Message.verify E.P k m).2 then
        match decode gatewayDHTDiscoverResponseV2 m with
        | .panic => .panic
        | .err => collect E limit added rest
        | .ok (_, _, found, digests, _, required, _) =>
          if required then .err
          else if !found then .ok none
          else
            (if (added + digests.length : Int) > limit then upTo (limit - added) digests else .ok digests) >>= fun ds =>
              if (added + ds.length : Int) ≥ limit then .ok (some [ds])
              else collect E limit (added + ds.length) rest >>= fun l => .ok (l.map (fun l => ds :: l))
      else collect E limit added rest

/-- filecoin_retrieval_client.go:558-560: `&entry.SubOffers` is the address of a part of the loop variable, one for the whole loop (Go 1.16),
so every entry of the map shows the offers of the last one. -/
def offersMap (entries : List (Id × List SubOffer)) : List (List Char × List SubOffer) :=
  entries.foldl (fun m e => mset m (Ids.toStr e.1) ((entries.map (·.2)).getLastD [])) []

/-- filecoin_retrieval_client.go:457-478: the search, repeated once after a payment if the gateway requires one; that payment goes to the
channel which the gateway names. -/
def searchDhtV2 (E : Env Sig) (c : Client Sig) (r : Record) (cid : Id) (num : Int) (channel : Addr) (voucher : Voucher Sig) :
    Client Sig × List (Out Sig) × Res (List (Id × Msg)) :=
  let ttl := E.now + c.settings.ttl
  let a := requestDhtV2 E 0 r cid (E.nonce 0) ttl num channel.toList (E.showVoucher voucher)
  match a.2 with
  | .panic => (c, a.1, .panic)
  | .err => (c, a.1, .err)
  | .ok (contacted, none) => (c, a.1, .ok contacted)
  | .ok (_, some toTopup) =>
    match topupAndPay E c 1 (String.ofList toTopup) c.settings.searchPrice with
    | (c, out, .panic) => (c, a.1 ++ out, .panic)
    | (c, out, .err) => (c, a.1 ++ out, .err)
    | (c, out, .ok (ch, v)) =>
      let b := requestDhtV2 E 1 r cid (E.nonce 0) ttl num ch.toList (E.showVoucher v)
      (c, a.1 ++ out ++ b.1, b.2 >>= fun x => .ok x.1)

/-- filecoin_retrieval_client.go:532-562: the payment for the digests taken, and the offers. -/
def fetchDhtV2 (E : Env Sig) (c : Client Sig) (r : Record) (cid : Id) (contacted : List Id) (dss : List (List (List Char))) :
    Client Sig × List (Out Sig) × Res (List (List Char × List SubOffer)) :=
  match payFor E (paymentMgr E c) 2 (String.ofList r.address) (((dss.map List.length).sum : Nat) * c.settings.offerPrice) with
  | (c, out, .panic) => (c, out, .panic)
  | (c, out, .err) => (c, out, .err)
  | (c, out, .ok (ch, v)) =>
    let a := requestDhtOffer E 2 r contacted cid (E.nonce 0) dss ch.toList (E.showVoucher v)
    (c, out ++ a.1, a.2 >>= fun l => .ok (offersMap l))

/-- filecoin_retrieval_client.go:431-563 `FindOffersDHTDiscoveryV2`. -/
def findDhtV2 (E : Env Sig) (c : Client Sig) (cid gw : Id) (num limit : Int) : Client Sig × List (Out Sig) × Res (List (List Char × List SubOffer)) :=
  match mget c.active (Ids.toStr gw) with
  | none => (c, [], .err)
  | some r =>
    match payFor E (paymentMgr E c) 0 (String.ofList r.address) (num * defaultSearchPrice) with
    | (c, out, .panic) => (c, out, .panic)
    | (c, out, .err) => (c, out, .err)
    | (c, out, .ok (ch, v)) =>
      match searchDhtV2 E c r cid num ch v with
      | (c, out1, .panic) => (c, out ++ out1, .panic)
      | (c, out1, .err) => (c, out ++ out1, .err)
      | (c, out1, .ok contacted) =>
        match collect E limit 0 contacted with
        | .panic => (c, out ++ out1, .panic)
        | .err => (c, out ++ out1, .err)
        | .ok none => (c, out ++ out1, .ok [])
        | .ok (some dss) =>
          let l := fetchDhtV2 E c r cid (contacted.map (·.1)) dss
          (l.1, out ++ out1 ++ l.2.1, l.2.2)

/-- filecoin_retrieval_client.go:725-763: the offers that pass, until there are `max` of them. -/
def takeValid (E : Env Sig) (max : Int) : Nat → List SubOffer → Res (List SubOffer)
  | _, [] => .ok []
  | n, o :: os =>
    match checkOffer E o with
    | .panic => .panic
    | .err => takeValid E max n os
    | .ok _ =>
      if (n + 1 : Int) = max then .ok [o]
      else do
        let l ← takeValid E max (n + 1) os
        return o :: l

/-- filecoin_retrieval_client.go:674-693: the search, repeated once after a payment if the gateway requires one. -/
def searchStandardV2 (E : Env Sig) (c : Client Sig) (r : Record) (cid : Id) (channel : Addr) (voucher : Voucher Sig) :
    Client Sig × List (Out Sig) × Res (List (List Char)) :=
  let ttl := E.now + c.settings.ttl
  let a := requestStandardV2 E 0 r cid (E.nonce 0) ttl channel.toList (E.showVoucher voucher)
  match a.2 with
  | .panic => (c, a.1, .panic)
  | .err => (c, a.1, .err)
  | .ok (digests, false) => (c, a.1, .ok digests)
  | .ok (_, true) =>
    match topupAndPay E c 1 (String.ofList r.address) c.settings.searchPrice with
    | (c, out, .panic) => (c, a.1 ++ out, .panic)
    | (c, out, .err) => (c, a.1 ++ out, .err)
    | (c, out, .ok (ch, v)) =>
      let b := requestStandardV2 E 1 r cid (E.nonce 1) ttl ch.toList (E.showVoucher v)
      (c, a.1 ++ out ++ b.1, b.2 >>= fun x => .ok x.1)

/-- filecoin_retrieval_client.go:705-765: the payment for the digests taken, and the offers; an error in getting them is not returned. -/
def fetchStandardV2 (E : Env Sig) (c : Client Sig) (r : Record) (cid : Id) (digests : List (List Char)) (max : Int) :
    Client Sig × List (Out Sig) × Res (List SubOffer) :=
  match payFor E c 2 (String.ofList r.address) (digests.length * c.settings.offerPrice) with
  | (c, out, .panic) => (c, out, .panic)
  | (c, out, .err) => (c, out, .err)
  | (c, out, .ok (ch, v)) =>
    let a := requestStandardOffer E 2 r cid (E.nonce 2) (E.now + c.settings.ttl) digests ch.toList (E.showVoucher v)
    (c, out ++ a.1, match a.2 with
      | .panic => .panic
      | .err => .ok []
      | .ok offers => takeValid E max 0 offers)

/-- filecoin_retrieval_client.go:647-766 `FindOffersStandardDiscoveryV2`; the payment manager is not set up here. -/
def findStandardV2 (E : Env Sig) (c : Client Sig) (cid gw : Id) (max : Int) : Client Sig × List (Out Sig) × Res (List SubOffer) :=
  match mget c.active (Ids.toStr gw) with
  | none => (c, [], .err)
  | some r =>
    match payFor E c 0 (String.ofList r.address) c.settings.searchPrice with
    | (c, out, .panic) => (c, out, .panic)
    | (c, out, .err) => (c, out, .err)
    | (c, out, .ok (ch, v)) =>
      match searchStandardV2 E c r cid ch v with
      | (c, out1, .panic) => (c, out ++ out1, .panic)
      | (c, out1, .err) => (c, out ++ out1, .err)
      | (c, out1, .ok digests) =>
        if digests.length = 0 then (c, out ++ out1, .ok [])
        else
          match (if (digests.length : Int) > max then upTo max digests else .ok digests) with
          | .ok ds =>
            let l := fetchStandardV2 E c r cid ds max
            (l.1, out ++ out1 ++ l.2.1, l.2.2)
          | _ => (c, out ++ out1, .panic)

/-- filecoin_retrieval_client.go:566-644 `FindDHTOfferAck`. -/
def findAck (E : Env Sig) (cid gw pid : Id) : List (Out Sig) × Res Bool :=
  match E.provider pid with
  | none => ([], .err)
  | some r =>
    match validProvider r with
    | .panic => ([], .panic)
    | .ok true =>
      let a := requestAck E 0 r cid gw
      (a.1, do
        let (found, request, ack) ← a.2
        if !found then return false
        else
          let gk ← checkedKey E.gateway validGateway gw
          let pk ← Crypto.decodePublicKey r.signingKey
          if (Message.verify E.P pk request).2 then
            let (_, _, offers) ← decode (providerPublishDHTOfferRequest E.H) request
            if offers.any (fun o => decide ((o.cids.head?.map Ids.toStr) = some (Ids.toStr cid))) then
              if (Message.verify E.P gk ack).2 then
                let (_, sig) ← decode providerPublishDHTOfferResponse ack
                Res.ofOption (Crypto.verifyMessage E.P gk sig (request.body.getD []))
              else .err
            else .err
          else .err)
    | _ => ([], .err)

/-! ## histories -/

/-- The calls that manage the gateways. -/
inductive Op where
  | addToUse (ids : List (Option Id))
  | removeToUse (ids : List (Option Id))
  | removeAllToUse
  | addActive (ids : List (Option Id))
  | removeActive (ids : List (Option Id))
  | removeAllActive
  deriving DecidableEq

/-- One call. -/
def step (E : Env Sig) (c : Client Sig) : Op → Client Sig × List (Out Sig) × Option Nat
  | .addToUse ids => let l := addToUse E c ids; (l.1, [], l.2)
  | .removeToUse ids => let l := removeToUse c ids; (l.1, [], l.2)
  | .removeAllToUse => let l := removeAllToUse c; (l.1, [], some l.2)
  | .addActive ids => addActive E c 0 ids
  | .removeActive ids => let l := removeActive c ids; (l.1, [], l.2)
  | .removeAllActive => let l := removeAllActive c; (l.1, [], some l.2)

/-- A history of such calls, each in its own circumstances, with what was seen. -/
def run (c : Client Sig) : List (Env Sig × Op) → Client Sig × List (Out Sig)
  | [] => (c, [])
  | (E, op) :: h =>
    let r := step E c op
    let l := run r.1 h
    (l.1, r.2.1 ++ l.2)

end FcRetrieval.Client
