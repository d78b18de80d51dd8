import Verif.Model.Gateway
import Verif.Model.Reputation
/-!
# Model of a gateway and its admin API (`gateway/internal/api/adminapi`, `gateway/internal/core`)

A gateway starts without identifier, key and payment manager; requests of the admin set them.  The handlers of the other APIs
are `Model/Gateway`.  Messages, signatures, stores and payments are the models named there; the reputations are `Model/Reputation`.

The handlers run one at a time and to their end.  The goroutines that `listOffers` and `updateGroup` start for each provider
run after the answer, one after the other in the order in which the register manager gives the providers.
A panic in a handler is recovered by `net/http`: the admin gets no answer.
-/

namespace FcRetrieval.GatewayAdmin
open FcRetrieval.Ids (Id)
open FcRetrieval.Crypto (KeyPair KeyVersion)
open FcRetrieval.Message (Msg)
open FcRetrieval.Register (Record)
open FcRetrieval.Wire (Codec encode decode)
open FcRetrieval.Codecs

/-- What a handler depends on besides the request and the gateway. -/
structure Env (Sig : Type) extends Gateway.Env Sig where
  /-- `fcrpaymentmgr.NewFCRPaymentMgr` for a wallet key, an API address and a token. -/
  newPayments : List Char → List Char → List Char → Option (Payment.Mgr Sig)
  /-- The register manager: `GetAllProviders`, `GetGatewayCIDRange`. -/
  providers : List Record
  cidRange : Id → Option (Id × Id)
  /-- core.go:119-138: the constant in `RegistrationMerkleProof`. -/
  proof : Merkle.Proof

/-- core.go:46-92. -/
structure Node (Sig : Type) where
  id : Option Id
  key : Option (KeyPair × KeyVersion)
  payment : Option (Payment.Mgr Sig)
  searchPrice : Int
  offerPrice : Int
  topupAmount : Int
  db : SqlOffer.DB
  reputation : Reputation.Store
  /-- `GroupCIDOfferSupportedForProviders`. -/
  groupProviders : List Id

/-- core.go:99-141 `GetSingleInstance`. -/
def newNode {Sig : Type} (searchPrice offerPrice topupAmount : Int) : Node Sig :=
  ⟨none, none, none, searchPrice, offerPrice, topupAmount, SqlOffer.newDB, [], []⟩

/-- What is seen from outside. -/
inductive Out where
  /-- A message written to the requester. -/
  | message (m : Msg)
  /-- `rest.Error` with this status. -/
  | status (code : Nat)
  /-- `RegisterMgr.Refresh`. -/
  | refresh
  /-- A message sent, or tried to be sent, to another node. -/
  | asked (node : Id) (m : Msg)
  /-- A goroutine that asks this provider ends with an error before it sends anything. -/
  | gaveUp (node : Id)
  /-- A panic in the handler. -/
  | panic
  /-- A panic in a goroutine, which ends the process. -/
  | crash

variable {Sig : Type}

/-- `FCRMessage.Sign` with the key of the gateway, which is nil before the admin sets it. -/
def signMsg (E : Env Sig) (n : Node Sig) (m : Msg) : Res Msg :=
  match n.key with
  | none => .panic
  | some (k, v) =>
    match Message.sign E.P k v m with
    | (m', true) => .ok m'
    | (_, false) => .err

/-- The end of every handler: encode, sign, write. -/
def respond {α : Type} (E : Env Sig) (n : Node Sig) (codec : Codec α) (a : α) : List Out :=
  match encode codec E.pr a with
  | .panic => [.panic]
  | .err => [.status 500]
  | .ok m =>
    match signMsg E n m with
    | .panic => [.panic]
    | .err => [.status 500]
    | .ok m' => [.message m']

/-- initialise_key_handler.go:29-66. -/
def initialise (E : Env Sig) (n : Node Sig) (m : Msg) : Node Sig × List Out :=
  match decode gatewayAdminInitialiseKeyRequest m with
  | .ok (id, some k, some v) =>
    let n' := { n with id := id, key := some (k, v) }
    (n', respond E n' gatewayAdminInitialiseKeyResponse true)
  | .err => (n, [.status 400])
  | _ => (n, [.panic])

/-- initialise_key_handler_v2.go:30-74: everything is set before the outcome is looked at; a payment manager that fails to be made is nil. -/
def initialiseV2 (E : Env Sig) (n : Node Sig) (m : Msg) : Node Sig × List Out :=
  match decode gatewayAdminInitialiseKeyRequestV2 m with
  | .ok (id, some k, some v, wallet, api, token) =>
    let n' := { n with id := id, key := some (k, v), payment := E.newPayments wallet api token }
    (n', if n'.payment.isSome then respond E n' gatewayAdminInitialiseKeyResponse true else [.status 400])
  | .err => (n, [.status 400])
  | _ => (n, [.panic])

/-- get_client_reputation_handler.go:29-70. -/
def getReputation (E : Env Sig) (n : Node Sig) (m : Msg) : Node Sig × List Out :=
  if n.key = none then (n, [.status 400])
  else
    match decode gatewayAdminGetReputationRequest m with
    | .ok (some c) =>
      let (v, found) := Reputation.adminGet n.reputation (Ids.toStr c)
      (n, respond E n gatewayAdminGetReputationResponse (some c, v, found))
    | .err => (n, [.status 400])
    | _ => (n, [.panic])

/-- set_client_reputation_handler.go:29-76. -/
def setReputation (E : Env Sig) (n : Node Sig) (m : Msg) : Node Sig × List Out :=
  if n.key = none then (n, [.status 400])
  else
    match decode gatewayAdminSetReputationRequest m with
    | .ok (some c, v) =>
      let (store, current, found) := Reputation.adminSet n.reputation (Ids.toStr c) v
      let n' := { n with reputation := store }
      (n', respond E n' gatewayAdminSetReputationResponse (some c, current, found))
    | .err => (n, [.status 400])
    | _ => (n, [.panic])

/-- force_refresh_handler.go:34-79. -/
def forceRefresh (E : Env Sig) (n : Node Sig) (m : Msg) : Node Sig × List Out :=
  if n.key = none then (n, [.status 400])
  else
    match decode gatewayAdminForceRefreshRequest m with
    | .panic => (n, [.panic])
    | .err => (n, [.status 400])
    | .ok refresh => (n, (if refresh then [.refresh] else []) ++ respond E n gatewayAdminForceRefreshResponse refresh)

/-! ## Requests to providers -/

/-- The arguments that a requester gets as `...interface{}`. -/
inductive Arg where
  | cid (c : Id)
  | node (n : Option Id)
  | bool (b : Bool)

/-- The requesters of gateway/cmd/gateway/main.go:102-106. -/
inductive Requester where
  | dhtDiscover
  | dhtDiscoverV2
  | listOffers
  | notifyGroup
  | dhtDiscoverOffer
  deriving DecidableEq

/-- gateway/cmd/gateway/main.go:102-106 with fcrp2pserver/server.go:83-89: the last requester added for a type is used. -/
def requester (type : Int) : Option Requester :=
  if type = (gatewayDHTDiscoverOfferRequest).code then some .dhtDiscoverOffer
  else if type = (gatewayNotifyProviderGroupCIDOfferSupportRequest).code then some .notifyGroup
  else if type = (gatewayListDHTOfferRequest).code then some .listOffers
  else if type = (gatewayDHTDiscoverRequestV2).code then some .dhtDiscoverV2
  else if type = (gatewayDHTDiscoverRequest).code then some .dhtDiscover
  else none

/-- What a requester of `Model/Gateway` did. -/
def lift : List (Gateway.Out Sig) → List Out
  | [] => []
  | .asked i m :: os => .asked i m :: lift os
  | .message m :: os => .message m :: lift os
  | .panic :: os => .crash :: lift os
  | _ :: os => lift os

/-- gatewayapi/list_dht_offer_requester.go:31-146 and gatewayapi/set_group_cid_support.go:26-70, called through fcrp2pserver/server.go:220-245
`RequestProvider` in a goroutine.  Arguments of another number or type are an error; the other requesters are not called for providers.
The payment manager is not used. -/
def requestProvider (E : Env Sig) (n : Node Sig) (pid : Id) (type : Int) (args : List Arg) : Node Sig × List Out :=
  match requester type, args with
  | some .listOffers, [.cid lo, .cid hi, .node (some p)] =>
    match n.id, n.key with
    | some id, some (k, v) =>
      let r := Gateway.listOffers E.toEnv ⟨id, k, v, n.searchPrice, n.offerPrice, n.topupAmount, n.db, n.payment.getD (Payment.newMgr "")⟩ p
        (encode gatewayListDHTOfferRequest E.pr (some id, some lo, some hi, "TODO".toList, "TODO".toList, "TODO".toList, some E.proof))
      ({ n with db := r.1.db }, lift r.2.1)
    | _, _ => (n, [.crash])
  | some .notifyGroup, [.bool supported] =>
    match encode gatewayNotifyProviderGroupCIDOfferSupportRequest E.pr (n.id, supported) with
    | .ok m =>
      match signMsg E n m with
      | .ok m' => (n, [.asked pid m'])
      | .err => (n, [.gaveUp pid])
      | .panic => (n, [.crash])
    | .err => (n, [.gaveUp pid])
    | .panic => (n, [.crash])
  | _, _ => (n, [.gaveUp pid])

/-- One request to each provider, with the arguments made from the identifier of the provider; a malformed identifier is skipped. -/
def requestAll (E : Env Sig) (type : Int) (args : Id → List Arg) : Node Sig → List Record → Node Sig × List Out
  | n, [] => (n, [])
  | n, r :: rs =>
    match Ids.fromHex r.nodeID with
    | none => requestAll E type args n rs
    | some id =>
      let a := requestProvider E n id type (args id)
      let b := requestAll E type args a.1 rs
      (b.1, a.2 ++ b.2)

/-- list_dht_offer_handler.go:52-70, the goroutine; `GetGatewayCIDRange` dereferences the identifier. -/
def listAll (E : Env Sig) (n : Node Sig) : Node Sig × List Out :=
  match n.id with
  | none => (n, [.crash])
  | some id =>
    match E.cidRange id with
    | none => (n, [])
    | some (lo, hi) => requestAll E (gatewayListDHTOfferRequest).code (fun pid => [.cid lo, .cid hi, .node (some pid)]) n E.providers

/-- list_dht_offer_handler.go:31-91. -/
def listOffers (E : Env Sig) (n : Node Sig) (m : Msg) : Node Sig × List Out :=
  if n.key = none then (n, [.status 400])
  else
    match decode gatewayAdminListDHTOfferRequest m with
    | .panic => (n, [.panic])
    | .err => (n, [.status 400])
    | .ok refresh =>
      let out := respond E n gatewayAdminListDHTOfferResponse refresh
      if refresh then
        let r := listAll E n
        (r.1, out ++ r.2)
      else (n, out)

/-- set_group_cid_support.go:32-63: the answer is that of another request, and the providers are notified with the type of a request
for a list of offers. -/
def updateGroup (E : Env Sig) (n : Node Sig) (m : Msg) : Node Sig × List Out :=
  match decode updateGatewayGroupCIDOfferSupportRequest m with
  | .ok (_, providers) =>
    let n' := { n with groupProviders := providers }
    match respond E n' gatewayAdminInitialiseKeyResponse true with
    | [.message a] =>
      let r := requestAll E (gatewayListDHTOfferRequest).code (fun _ => [.node n'.id, .bool true]) n' E.providers
      (r.1, .message a :: r.2)
    | out => (n', out)
  | .err => (n, [.status 400])
  | .panic => (n, [.panic])

/-- The kinds of requests of the admin. -/
inductive Kind where
  | initialise
  | initialiseV2
  | getReputation
  | setReputation
  | forceRefresh
  | listOffers
  | updateGroup
  deriving DecidableEq

/-- gateway/cmd/gateway/main.go:75-81: the handler of each kind. -/
def serve (E : Env Sig) (n : Node Sig) : Kind → Msg → Node Sig × List Out
  | .initialise => initialise E n
  | .initialiseV2 => initialiseV2 E n
  | .getReputation => getReputation E n
  | .setReputation => setReputation E n
  | .forceRefresh => forceRefresh E n
  | .listOffers => listOffers E n
  | .updateGroup => updateGroup E n

/-- gateway/cmd/gateway/main.go:75-81: the kind of a type of message at the address for the admin. -/
def kindOf (type : Int) : Option Kind :=
  if type = (gatewayAdminInitialiseKeyRequest).code then some .initialise
  else if type = (gatewayAdminInitialiseKeyRequestV2).code then some .initialiseV2
  else if type = (gatewayAdminGetReputationRequest).code then some .getReputation
  else if type = (gatewayAdminSetReputationRequest).code then some .setReputation
  else if type = (gatewayAdminForceRefreshRequest).code then some .forceRefresh
  else if type = (gatewayAdminListDHTOfferRequest).code then some .listOffers
  else if type = (updateGatewayGroupCIDOfferSupportRequest).code then some .updateGroup
  else none

/-! ## The handlers of the other APIs that do not pay, before the admin sets the key -/

/-- gatewayapi/dht_discover_handler.go:34-99, before the key is set. -/
def freshPeerDht (E : Env Sig) (n : Node Sig) (m : Msg) : Node Sig × List (Gateway.Out Sig) :=
  match decode gatewayDHTDiscoverRequest m with
  | .panic => (n, [.panic])
  | .err => (n, [.invalid])
  | .ok (gw, cid, nonce, ttl, _, _) =>
    match Gateway.senderKey E.toEnv E.gateway gw m with
    | .panic => (n, [.panic])
    | .err => (n, [.invalid])
    | .ok _ =>
      if E.now > ttl then (n, [.invalid])
      else
        match cid with
        | none => (n, [.panic])
        | some id =>
          match SqlOffer.getOffers E.H E.order E.off E.now n.db id with
          | .ok (offers, found) =>
            match encode gatewayDHTDiscoverResponse E.pr (some id, nonce, found, offers.map (fun o => Offer.subOffer E.H o id), offers.map (fun _ => false)) with
            | .err => (n, [.invalid])
            | _ => (n, [.panic])
          | _ => (n, [.panic])

/-- providerapi/publish_dht_offer_handler.go:32-92, before the key is set: line 73 signs with nil. -/
def freshPublishDht (E : Env Sig) (n : Node Sig) (m : Msg) : Node Sig × List (Gateway.Out Sig) :=
  match decode (providerPublishDHTOfferRequest E.H) m with
  | .panic => (n, [.panic])
  | .err => (n, [.invalid])
  | .ok (pid, _, offers) =>
    match Gateway.senderKey E.toEnv E.provider pid m with
    | .panic => (n, [.panic])
    | .err => (n, [.invalid])
    | .ok k =>
      match Gateway.storeAll E.toEnv k n.db offers with
      | (db, .err) => ({ n with db := db }, [.invalid])
      | (db, _) => ({ n with db := db }, [.panic])

/-- providerapi/publish_group_offer_handler.go:28-85, before the identifier is set: line 68 encodes nil. -/
def freshPublishGroup (E : Env Sig) (n : Node Sig) (m : Msg) : Node Sig × List (Gateway.Out Sig) :=
  match decode (providerPublishGroupOfferRequest E.H) m with
  | .ok (pid, _, some o) =>
    match Gateway.senderKey E.toEnv E.provider pid m with
    | .panic => (n, [.panic])
    | .err => (n, [.invalid])
    | .ok k =>
      match Offer.verify E.P k o with
      | .panic => (n, [.panic])
      | .err => (n, [.invalid])
      | .ok _ =>
        match SqlOffer.addGroup E.H512 (E.dbFails o) n.db o with
        | .ok (db, false) => ({ n with db := db }, [.invalid])
        | .ok (db, true) => ({ n with db := db }, [.panic])
        | _ => (n, [.panic])
  | .err => (n, [.invalid])
  | _ => (n, [.panic])

end FcRetrieval.GatewayAdmin
