import Verif.Model.Startup
import Verif.Spec.ClientGateway
import Verif.Spec.P2P
/-!
# Specification vocabulary for the start-up of a node
-/

namespace FcRetrieval.Startup
open FcRetrieval.Codecs
open FcRetrieval.Message (Msg)

/-- The requests of gateways that a gateway serves (`Client.clientKind` and `GatewayAdmin.kindOf` are those of clients and of the admin). -/
def peerKind (type : Int) : Option Gateway.Kind :=
  if type = gatewayDHTDiscoverRequest.code then some .peerDht
  else if type = gatewayDHTDiscoverRequestV2.code then some .peerDhtV2
  else if type = gatewayDHTDiscoverOfferRequest.code then some .peerDhtOffer
  else none

/-- The requests of providers that a gateway serves. -/
def publishKind (type : Int) : Option Gateway.Kind :=
  if type = (providerPublishGroupOfferRequest (fun b => b)).code then some .publishGroup
  else if type = (providerPublishDHTOfferRequest (fun b => b)).code then some .publishDht
  else none

/-- The requests of clients that a provider serves. -/
def ackKind (type : Int) : Option Provider.Kind :=
  if type = clientDHTOfferAckRequest.code then some .offerAck else none

/-- The requests of its admin that a provider serves. -/
def providerAdminKind (type : Int) : Option Provider.Kind :=
  if type = providerAdminInitialiseKeyRequest.code then some .initialise
  else if type = providerAdminInitialiseKeyRequestV2.code then some .initialiseV2
  else if type = providerAdminGetPublishedOfferRequest.code then some .getPublished
  else if type = providerAdminPublishDHTOfferRequest.code then some .publishDht
  else if type = providerAdminPublishGroupOfferRequest.code then some .publishGroup
  else if type = providerAdminForceRefreshRequest.code then some .forceRefresh
  else none

/-- The requests of gateways that a provider serves. -/
def gatewayKind (type : Int) : Option Provider.Kind :=
  if type = gatewayListDHTOfferRequest.code then some .listDht
  else if type = gatewayNotifyProviderGroupCIDOfferSupportRequest.code then some .notifyGroup
  else none

/-- At this port the HTTP server has these handlers, and no others: a request is handed to a handler exactly if it is a message of one of these types. -/
def ServesHttp {η : Type} (r : Running η) (port : String) (kind : Int → Option η) : Prop :=
  ∀ body h m, P2P.route r.rest port body = .handled h m ↔ body ≠ [] ∧ Message.fromBytes body = .ok m ∧ kind m.type = some h

/-- The same for the TCP server. -/
def ServesTcp {η : Type} (r : Running η) (port : String) (kind : Int → Option η) : Prop := ∀ type, P2P.lookup r.p2p port type = kind type

end FcRetrieval.Startup
