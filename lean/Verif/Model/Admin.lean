import Verif.Model.Codecs
import Verif.Model.Register
/-!
# Model of the admin libraries (`gateway-admin/pkg`, `provider-admin/pkg`)

One call at a time, run to its end.  A call gives the message it sent, if any, with the network address it sent it to, and its result:
`.err` for an error, `.panic` for a panic, which ends the program that uses the library.  Log messages are not modelled, and what is
returned beside an error is not either.  `ResetClientReputation`, `SetClientReputation` and `GetCIDOffersList` of the gateway admin
(filecoin-gateway-admin.go:97-109) always return an error and are left out.
-/

namespace FcRetrieval.Admin
open FcRetrieval.Ids (Id)
open FcRetrieval.Merkle (Hash)
open FcRetrieval.Crypto (Prims KeyPair KeyVersion)
open FcRetrieval.Message (Msg Protocol)
open FcRetrieval.Offer (CidOffer)
open FcRetrieval.Register (Record)
open FcRetrieval.Wire (Codec encode decode)
open FcRetrieval.Codecs

/-- What a call depends on besides its arguments and the active nodes. -/
structure Env where
  /-- Keccak-256, for the Merkle trees of decoded offers. -/
  H : Hash
  P : Prims
  pr : Protocol
  /-- `gatewayAdminPrivateKey`, `providerAdminPrivateKey` and their versions; nil if the settings were built without. -/
  key : Option (KeyPair × KeyVersion)
  /-- What is read after a message is sent to this network address; `none` if it cannot be reached, answers with a status other than 200,
  or with something that is not a message (request.go:99-135 `SendMessage`). -/
  exchange : List Char → Msg → Option Msg

/-- What a call sent. -/
abbrev Sent := List (List Char × Msg)

/-- The common part of all requesters: get the key from the record, encode, sign, send, verify the answer
(e.g. gateway-admin/pkg/api/adminapi/force_refresh_requester.go:36-63). -/
def ask (E : Env) (r : Record) (request : Res Msg) : Sent × Res Msg :=
  match Crypto.decodePublicKey r.signingKey with
  | .panic => ([], .panic)
  | .err => ([], .err)
  | .ok pub =>
    match request, E.key with
    | .panic, _ => ([], .panic)
    | .err, _ => ([], .err)
    | .ok _, none => ([], .panic)
    | .ok m, some (k, v) =>
      match Message.sign E.P k v m with
      | (_, false) => ([], .err)
      | (m', true) => ([(r.netAdmin, m')],
          match E.exchange r.netAdmin m' with
          | none => .err
          | some a => if (Message.verify E.P pub a).2 then .ok a else .err)

/-- The end of the requesters whose answer is a flag. -/
def flag (codec : Codec Bool) (a : Sent × Res Msg) : Sent × Res Unit :=
  (a.1, do
    let ok ← decode codec (← a.2)
    if ok then .ok () else .err)

/-! ## gateway-admin -/

/-- gateway-admin/pkg/api/adminapi/initialise_key_requester.go:29-78; a malformed identifier is an error after the key has been read. -/
def gatewayInitialise (E : Env) (r : Record) (k : Option KeyPair) (v : Option KeyVersion) : Sent × Res Unit :=
  flag gatewayAdminInitialiseKeyResponse (ask E r (match Ids.fromHex r.nodeID with
    | none => .err
    | some id => encode gatewayAdminInitialiseKeyRequest E.pr (some id, k, v)))

/-- gateway-admin/pkg/api/adminapi/initialise_key_requester_v2.go:29-90. -/
def gatewayInitialiseV2 (E : Env) (r : Record) (k : Option KeyPair) (v : Option KeyVersion) (wallet api token : List Char) : Sent × Res Unit :=
  flag gatewayAdminInitialiseKeyResponse (ask E r (match Ids.fromHex r.nodeID with
    | none => .err
    | some id => encode gatewayAdminInitialiseKeyRequestV2 E.pr (some id, k, v, wallet, api, token)))

/-- gateway-admin/pkg/api/adminapi/force_refresh_requester.go:31-75. -/
def gatewayRefresh (E : Env) (r : Record) : Sent × Res Unit :=
  flag gatewayAdminForceRefreshResponse (ask E r (encode gatewayAdminForceRefreshRequest E.pr true))

/-- gateway-admin/pkg/api/adminapi/list_dht_offer_requester.go:28-72. -/
def gatewayList (E : Env) (r : Record) : Sent × Res Unit :=
  flag gatewayAdminListDHTOfferResponse (ask E r (encode gatewayAdminListDHTOfferRequest E.pr true))

/-- gateway-admin/pkg/api/adminapi/set_group_cid_support.go:28-78. -/
def gatewayGroup (E : Env) (r : Record) (providers : List Id) : Sent × Res Unit :=
  flag updateGatewayGroupCIDOfferSupportResponse (ask E r (match Ids.fromHex r.nodeID with
    | none => .err
    | some id => encode updateGatewayGroupCIDOfferSupportRequest E.pr (some id, providers)))

/-- gateway-admin/pkg/api/adminapi/get_reputation_requester.go:29-76; a nil identifier in the answer is dereferenced. -/
def getReputation (E : Env) (r : Record) (client : Id) : Sent × Res Int :=
  let a := ask E r (encode gatewayAdminGetReputationRequest E.pr (some client))
  (a.1, do
    let (c, v, found) ← decode gatewayAdminGetReputationResponse (← a.2)
    let c ← deref c
    if Ids.toStr c ≠ Ids.toStr client then .err
    else if !found then .err
    else .ok v)

/-- gateway-admin/pkg/api/adminapi/set_reputation_requester.go:29-80. -/
def setReputation (E : Env) (r : Record) (client : Id) (v : Int) : Sent × Res Unit :=
  let a := ask E r (encode gatewayAdminSetReputationRequest E.pr (some client, v))
  (a.1, do
    let (c, w, found) ← decode gatewayAdminSetReputationResponse (← a.2)
    let c ← deref c
    if Ids.toStr c ≠ Ids.toStr client then .err
    else if !found then .err
    else if w ≠ v then .err
    else .ok ())

/-! ## provider-admin -/

/-- provider-admin/pkg/api/adminapi/initialise_key_requester.go:29-79. -/
def providerInitialise (E : Env) (r : Record) (k : Option KeyPair) (v : Option KeyVersion) : Sent × Res Unit :=
  flag providerAdminInitialiseKeyResponse (ask E r (match Ids.fromHex r.nodeID with
    | none => .err
    | some id => encode providerAdminInitialiseKeyRequest E.pr (some id, k, v)))

/-- provider-admin/pkg/api/adminapi/initialise_key_requester_v2.go:29-90. -/
def providerInitialiseV2 (E : Env) (r : Record) (k : Option KeyPair) (v : Option KeyVersion) (wallet api token : List Char) : Sent × Res Unit :=
  flag providerAdminInitialiseKeyResponse (ask E r (match Ids.fromHex r.nodeID with
    | none => .err
    | some id => encode providerAdminInitialiseKeyRequestV2 E.pr (some id, k, v, wallet, api, token)))

/-- provider-admin/pkg/api/adminapi/force_refresh_requester.go:31-75. -/
def providerRefresh (E : Env) (r : Record) : Sent × Res Unit :=
  flag providerAdminForceRefreshResponse (ask E r (encode providerAdminForceRefreshRequest E.pr true))

/-- provider-admin/pkg/api/adminapi/publish_group_offer_requester.go:29-75. -/
def publishGroup (E : Env) (r : Record) (cids : List Id) (price : Nat) (expiry : Int) (qos : Nat) : Sent × Res Unit :=
  flag providerAdminPublishGroupOfferResponse (ask E r (encode providerAdminPublishGroupOfferRequest E.pr (cids, price, expiry, qos)))

/-- provider-admin/pkg/api/adminapi/publish_dht_offer_requester.go:29-76. -/
def publishDht (E : Env) (r : Record) (cids : List Id) (price : List Nat) (expiry : List Int) (qos : List Nat) : Sent × Res Unit :=
  flag providerAdminPublishDHTOfferResponse (ask E r (encode providerAdminPublishDHTOfferRequest E.pr (cids, price, expiry, qos)))

/-- provider-admin/pkg/api/adminapi/get_published_offer_requester.go:30-73. -/
def getPublished (E : Env) (r : Record) (gateways : List Id) : Sent × Res (Bool × List CidOffer) :=
  let a := ask E r (encode providerAdminGetPublishedOfferRequest E.pr gateways)
  (a.1, do decode (providerAdminGetPublishedOfferResponse E.H) (← a.2))

/-! ## The libraries: the nodes in use -/

/-- `ActiveGateways`, `ActiveProviders`. -/
abbrev Active := List (List Char × Record)

/-- filecoin-gateway-admin.go:53-64, 67-94, 133-143 and filecoin_provider_admin.go:53-64, 67-94: a node is added after a call that succeeds. -/
def adding (active : Active) (r : Record) (a : Sent × Res Unit) : Active × Sent × Res Unit :=
  match a.2 with
  | .ok _ => (mset active r.nodeID r, a.1, .ok ())
  | e => (active, a.1, e)

/-- filecoin-gateway-admin.go:112-131 and filecoin_provider_admin.go:97-138: a call to a node that was added before. -/
def using' {α : Type} (active : Active) (id : Id) (call : Record → Sent × Res α) : Active × Sent × Res α :=
  match mget active (Ids.toStr id) with
  | none => (active, [], .err)
  | some r => (active, call r)

/-- The calls of filecoin-gateway-admin.go. -/
inductive GatewayCall where
  | initialise (r : Record) (k : Option KeyPair) (v : Option KeyVersion)
  | initialiseV2 (r : Record) (k : Option KeyPair) (v : Option KeyVersion) (wallet api token : List Char)
  | forceUpdate (id : Id)
  | listOffers (id : Id)
  | updateFeatures (r : Record) (providers : List Id)

/-- filecoin-gateway-admin.go:53-143. -/
def gatewayCall (E : Env) (active : Active) : GatewayCall → Active × Sent × Res Unit
  | .initialise r k v => adding active r (gatewayInitialise E r k v)
  | .initialiseV2 r k v wallet api token => adding active r (gatewayInitialiseV2 E r k v wallet api token)
  | .forceUpdate id => using' active id (gatewayRefresh E)
  | .listOffers id => using' active id (gatewayList E)
  | .updateFeatures r providers => adding active r (gatewayGroup E r providers)

/-- The calls of filecoin_provider_admin.go whose result is an error or none. -/
inductive ProviderCall where
  | initialise (r : Record) (k : Option KeyPair) (v : Option KeyVersion)
  | initialiseV2 (r : Record) (k : Option KeyPair) (v : Option KeyVersion) (wallet api token : List Char)
  | publishGroup (id : Id) (cids : List Id) (price : Nat) (expiry : Int) (qos : Nat)
  | publishDht (id : Id) (cids : List Id) (price : List Nat) (expiry : List Int) (qos : List Nat)
  | forceUpdate (id : Id)

/-- filecoin_provider_admin.go:53-116, 130-138. -/
def providerCall (E : Env) (active : Active) : ProviderCall → Active × Sent × Res Unit
  | .initialise r k v => adding active r (providerInitialise E r k v)
  | .initialiseV2 r k v wallet api token => adding active r (providerInitialiseV2 E r k v wallet api token)
  | .publishGroup id cids price expiry qos => using' active id (fun r => publishGroup E r cids price expiry qos)
  | .publishDht id cids price expiry qos => using' active id (fun r => publishDht E r cids price expiry qos)
  | .forceUpdate id => using' active id (providerRefresh E)

/-- filecoin_provider_admin.go:119-127 `GetGroupCIDOffer`. -/
def getGroupOffers (E : Env) (active : Active) (id : Id) (gateways : List Id) : Active × Sent × Res (Bool × List CidOffer) :=
  using' active id (fun r => getPublished E r gateways)

end FcRetrieval.Admin
