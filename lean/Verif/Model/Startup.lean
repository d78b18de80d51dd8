import Verif.Model.P2P
import Verif.Model.Config
import Verif.Model.GatewayAdmin
import Verif.Model.Provider
import Verif.Spec.Gateway
/-!
# Model of `gateway/cmd/gateway/main.go` and `provider/cmd/provider/main.go`
-/

namespace FcRetrieval.Startup
open FcRetrieval.Codecs
open FcRetrieval.Config (Settings)
open FcRetrieval.P2P (Server addHandler)

/-- The handlers of a gateway: those of clients, gateways and providers, and those of the admin. -/
inductive GatewayHandler where
  | api (k : Gateway.Kind)
  | admin (k : GatewayAdmin.Kind)
  deriving DecidableEq

/-- A chain of calls of `AddHandler`. -/
def addAll {η : Type} (s : Server η) (table : List (String × Int × η)) : Server η := table.foldl (fun s e => addHandler s e.1 e.2.1 e.2.2) s

/-- gateway/cmd/gateway/main.go:65-81: the handlers of the REST server. -/
def gatewayRestTable (s : Settings) : List (String × Int × GatewayHandler) :=
  [(s.restAPI, clientEstablishmentRequest.code, .api .establishment),
   (s.restAPI, clientDHTDiscoverRequest.code, .api .dht),
   (s.restAPI, clientDHTDiscoverOfferRequest.code, .api .dhtOffer),
   (s.restAPI, clientDHTDiscoverRequestV2.code, .api .dhtV2),
   (s.restAPI, clientStandardDiscoverOfferRequest.code, .api .standardOffer),
   (s.restAPI, clientStandardDiscoverRequest.code, .api .standard),
   (s.restAPI, clientStandardDiscoverRequestV2.code, .api .standardV2),
   (s.adminAPI, gatewayAdminInitialiseKeyRequest.code, .admin .initialise),
   (s.adminAPI, gatewayAdminInitialiseKeyRequestV2.code, .admin .initialiseV2),
   (s.adminAPI, gatewayAdminGetReputationRequest.code, .admin .getReputation),
   (s.adminAPI, gatewayAdminSetReputationRequest.code, .admin .setReputation),
   (s.adminAPI, gatewayAdminForceRefreshRequest.code, .admin .forceRefresh),
   (s.adminAPI, gatewayAdminListDHTOfferRequest.code, .admin .listOffers),
   (s.adminAPI, updateGatewayGroupCIDOfferSupportRequest.code, .admin .updateGroup)]

/-- gateway/cmd/gateway/main.go:96-109: the handlers of the P2P server.  The requesters (102-106) are modelled with their callers. -/
def gatewayP2PTable (s : Settings) : List (String × Int × GatewayHandler) :=
  [(s.gatewayAPI, gatewayDHTDiscoverRequest.code, .api .peerDht),
   (s.gatewayAPI, gatewayDHTDiscoverRequestV2.code, .api .peerDhtV2),
   (s.gatewayAPI, gatewayDHTDiscoverOfferRequest.code, .api .peerDhtOffer),
   (s.providerAPI, (providerPublishGroupOfferRequest (fun b => b)).code, .api .publishGroup),
   (s.providerAPI, (providerPublishDHTOfferRequest (fun b => b)).code, .api .publishDht)]

/-- provider/cmd/provider/main.go:65-75: the handlers of the REST server. -/
def providerRestTable (s : Settings) : List (String × Int × Provider.Kind) :=
  [(s.restAPI, clientDHTOfferAckRequest.code, .offerAck),
   (s.adminAPI, providerAdminInitialiseKeyRequest.code, .initialise),
   (s.adminAPI, providerAdminInitialiseKeyRequestV2.code, .initialiseV2),
   (s.adminAPI, providerAdminGetPublishedOfferRequest.code, .getPublished),
   (s.adminAPI, providerAdminPublishDHTOfferRequest.code, .publishDht),
   (s.adminAPI, providerAdminPublishGroupOfferRequest.code, .publishGroup),
   (s.adminAPI, providerAdminForceRefreshRequest.code, .forceRefresh)]

/-- provider/cmd/provider/main.go:90-94: the handlers of the P2P server. -/
def providerP2PTable (s : Settings) : List (String × Int × Provider.Kind) :=
  [(s.gatewayAPI, gatewayListDHTOfferRequest.code, .listDht),
   (s.gatewayAPI, gatewayNotifyProviderGroupCIDOfferSupportRequest.code, .notifyGroup)]

/-- common/pkg/fcrrestserver/server.go:70-101 `Start`: a port that cannot be listened on is only logged, because `ListenAndServe` is called after the routine has
reported success.  `free`: the ports that no other program listens on; `l`: those that this program listens on already.  Two texts are taken to be two ports;
the routines are taken to listen before `Start` returns, which matters only if two of the ports are the same. -/
def listenHttp (free : String → Bool) : List String → List String → List String
  | [], l => l
  | a :: as, l => if free a = true ∧ a ∉ l then listenHttp free as (l ++ [a]) else listenHttp free as l

/-- common/pkg/fcrp2pserver/server.go:92-119 `Start`: the first port that cannot be listened on is an error. -/
def listenTcp (free : String → Bool) : List String → List String → Option (List String)
  | [], l => some l
  | a :: as, l => if free a = true ∧ a ∉ l then listenTcp free as (l ++ [a]) else none

/-- A program after its start-up is complete. -/
structure Running (η : Type) where
  /-- The server for HTTP requests. -/
  rest : Server η
  /-- The server for TCP connections, and its timeout in nanoseconds. -/
  p2p : Server η
  timeout : Int
  /-- The ports that it listens on. -/
  listening : List String
  /-- How often the register is asked, in nanoseconds, and where. -/
  refresh : Int
  registerURL : String
  /-- Whether it looks for providers and for gateways. -/
  discoverProviders : Bool
  discoverGateways : Bool

/-- gateway/cmd/gateway/main.go:46-130 `main`, up to `Start-up Complete`; `none` if it ends before. -/
def gatewayMain (free : String → Bool) (s : Settings) : Option (Running GatewayHandler) :=
  let rest := (P2P.start (addAll (P2P.new [s.adminAPI, s.restAPI]) (gatewayRestTable s))).1
  let l := listenHttp free [s.adminAPI, s.restAPI] []
  match listenTcp free [s.gatewayAPI, s.providerAPI] l with
  | none => none
  | some l =>
    some { rest := rest, p2p := (P2P.start (addAll (P2P.new [s.gatewayAPI, s.providerAPI]) (gatewayP2PTable s))).1, timeout := s.timeout, listening := l,
           refresh := 10000000000, registerURL := s.registerURL, discoverProviders := true, discoverGateways := true }

/-- provider/cmd/provider/main.go:48-118 `main`, likewise. -/
def providerMain (free : String → Bool) (s : Settings) : Option (Running Provider.Kind) :=
  let rest := (P2P.start (addAll (P2P.new [s.adminAPI, s.restAPI]) (providerRestTable s))).1
  let l := listenHttp free [s.adminAPI, s.restAPI] []
  match listenTcp free [s.gatewayAPI] l with
  | none => none
  | some l =>
    some { rest := rest, p2p := (P2P.start (addAll (P2P.new [s.gatewayAPI]) (providerP2PTable s))).1, timeout := s.timeout, listening := l,
           refresh := 10000000000, registerURL := s.registerURL, discoverProviders := false, discoverGateways := true }

end FcRetrieval.Startup
