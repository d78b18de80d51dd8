import Verif.Model.Codecs
import Verif.Spec.Message
import Verif.Spec.Offer
/-!
# Specification vocabulary for the message kinds
-/

namespace FcRetrieval.Codecs
open FcRetrieval.Ids (Id)
open FcRetrieval.Merkle (Hash)
open FcRetrieval.Message (Msg Protocol)
open FcRetrieval.Wire

/-- The protocol versions of the process are `int32`s. -/
def ProtocolOk (pr : Protocol) : Prop := inI32 pr.version ∧ ∀ l, pr.supported = some l → ∀ n ∈ l, inI32 n

/-- The sender encodes the arguments into a message, signs it (any signature), and writes it; the receiver reads the bytes and
gets the message and, from the decoder of the kind, exactly the arguments. -/
def Delivers {α : Type} (c : Codec α) (pr : Protocol) (a : α) : Prop :=
  ∃ m, encode c pr a = .ok m ∧ m.type = c.code ∧ m.version = pr.version ∧ m.supported = pr.supported ∧
    ∀ sig, Message.fromBytes (Message.toBytes { m with signature := sig }) = .ok { m with signature := sig } ∧
      decode c { m with signature := sig } = .ok a

/-- A non-nil pointer to an identifier of 32 bytes. -/
def IdOk (x : Option Id) : Prop := ∃ p, x = some p ∧ p.length = 32
/-- A list of identifiers of 32 bytes. -/
def IdsOk (l : List Id) : Prop := ∀ p ∈ l, p.length = 32
/-- A Merkle proof whose indices are `int64` and whose parts have a length below 2^32. -/
def ProofOk (p : Merkle.Proof) : Prop :=
  (∀ l, p.index = some l → ∀ n ∈ l, inI64 n) ∧ (render (Merkle.pathJson p.path)).length < 4294967296 ∧
  (render (Merkle.indexJson p.index)).length < 4294967296

/-- Decoding a message of this kind never crashes, whatever the message. -/
def NeverPanics {α : Type} (c : Codec α) : Prop := ∀ m, decode c m ≠ .panic

/-! ## all kinds together -/

/-- A message kind: its name, its type code, and the messages its decoder accepts. -/
structure Kind where
  name : String
  code : Int
  accepts : Msg → Prop

/-- The kind with this codec. -/
def kind {α : Type} (name : String) (c : Codec α) : Kind := ⟨name, c.code, fun m => ∃ a, decode c m = .ok a⟩

/-- The sixty message kinds. -/
def kinds (H : Hash) : List Kind := [
  kind "invalidMessageResponse" invalidMessageResponse,
  kind "protocolChangeRequest" protocolChangeRequest,
  kind "protocolChangeResponse" protocolChangeResponse,
  kind "clientDHTDiscoverOfferRequest" clientDHTDiscoverOfferRequest,
  kind "clientDHTDiscoverOfferResponse" clientDHTDiscoverOfferResponse,
  kind "clientDHTDiscoverRequest" clientDHTDiscoverRequest,
  kind "clientDHTDiscoverRequestV2" clientDHTDiscoverRequestV2,
  kind "clientDHTDiscoverResponse" clientDHTDiscoverResponse,
  kind "clientDHTDiscoverResponseV2" clientDHTDiscoverResponseV2,
  kind "clientDHTOfferAckRequest" clientDHTOfferAckRequest,
  kind "clientDHTOfferAckResponse" clientDHTOfferAckResponse,
  kind "clientEstablishmentRequest" clientEstablishmentRequest,
  kind "clientEstablishmentResponse" clientEstablishmentResponse,
  kind "clientStandardDiscoverOfferRequest" clientStandardDiscoverOfferRequest,
  kind "clientStandardDiscoverOfferResponse" clientStandardDiscoverOfferResponse,
  kind "clientStandardDiscoverRequest" clientStandardDiscoverRequest,
  kind "clientStandardDiscoverRequestV2" clientStandardDiscoverRequestV2,
  kind "clientStandardDiscoverResponse" clientStandardDiscoverResponse,
  kind "clientStandardDiscoverResponseV2" clientStandardDiscoverResponseV2,
  kind "gatewayDHTDiscoverOfferRequest" gatewayDHTDiscoverOfferRequest,
  kind "gatewayDHTDiscoverOfferResponse" gatewayDHTDiscoverOfferResponse,
  kind "gatewayDHTDiscoverRequest" gatewayDHTDiscoverRequest,
  kind "gatewayDHTDiscoverRequestV2" gatewayDHTDiscoverRequestV2,
  kind "gatewayDHTDiscoverResponse" gatewayDHTDiscoverResponse,
  kind "gatewayDHTDiscoverResponseV2" gatewayDHTDiscoverResponseV2,
  kind "gatewayListDHTOfferAck" gatewayListDHTOfferAck,
  kind "gatewayListDHTOfferRequest" gatewayListDHTOfferRequest,
  kind "gatewayListDHTOfferResponse" gatewayListDHTOfferResponse,
  kind "gatewayNotifyProviderGroupCIDOfferSupportRequest" gatewayNotifyProviderGroupCIDOfferSupportRequest,
  kind "gatewayNotifyProviderGroupCIDOfferSupportResponse" gatewayNotifyProviderGroupCIDOfferSupportResponse,
  kind "gatewayPingRequest" gatewayPingRequest,
  kind "gatewayPingResponse" gatewayPingResponse,
  kind "gatewayAdminForceRefreshRequest" gatewayAdminForceRefreshRequest,
  kind "gatewayAdminForceRefreshResponse" gatewayAdminForceRefreshResponse,
  kind "gatewayAdminGetReputationRequest" gatewayAdminGetReputationRequest,
  kind "gatewayAdminGetReputationResponse" gatewayAdminGetReputationResponse,
  kind "gatewayAdminInitialiseKeyRequest" gatewayAdminInitialiseKeyRequest,
  kind "gatewayAdminInitialiseKeyRequestV2" gatewayAdminInitialiseKeyRequestV2,
  kind "gatewayAdminInitialiseKeyResponse" gatewayAdminInitialiseKeyResponse,
  kind "gatewayAdminListDHTOfferRequest" gatewayAdminListDHTOfferRequest,
  kind "gatewayAdminListDHTOfferResponse" gatewayAdminListDHTOfferResponse,
  kind "gatewayAdminSetReputationRequest" gatewayAdminSetReputationRequest,
  kind "gatewayAdminSetReputationResponse" gatewayAdminSetReputationResponse,
  kind "updateGatewayGroupCIDOfferSupportRequest" updateGatewayGroupCIDOfferSupportRequest,
  kind "updateGatewayGroupCIDOfferSupportResponse" updateGatewayGroupCIDOfferSupportResponse,
  kind "providerPublishDHTOfferRequest" (providerPublishDHTOfferRequest H),
  kind "providerPublishDHTOfferResponse" providerPublishDHTOfferResponse,
  kind "providerPublishGroupOfferRequest" (providerPublishGroupOfferRequest H),
  kind "providerPublishGroupOfferResponse" providerPublishGroupOfferResponse,
  kind "providerAdminForceRefreshRequest" providerAdminForceRefreshRequest,
  kind "providerAdminForceRefreshResponse" providerAdminForceRefreshResponse,
  kind "providerAdminGetPublishedOfferRequest" providerAdminGetPublishedOfferRequest,
  kind "providerAdminGetPublishedOfferResponse" (providerAdminGetPublishedOfferResponse H),
  kind "providerAdminInitialiseKeyRequest" providerAdminInitialiseKeyRequest,
  kind "providerAdminInitialiseKeyRequestV2" providerAdminInitialiseKeyRequestV2,
  kind "providerAdminInitialiseKeyResponse" providerAdminInitialiseKeyResponse,
  kind "providerAdminPublishDHTOfferRequest" providerAdminPublishDHTOfferRequest,
  kind "providerAdminPublishDHTOfferResponse" providerAdminPublishDHTOfferResponse,
  kind "providerAdminPublishGroupOfferRequest" providerAdminPublishGroupOfferRequest,
  kind "providerAdminPublishGroupOfferResponse" providerAdminPublishGroupOfferResponse]

/-- Some bytes are received as a message on which the decoder of this kind crashes. -/
def Crashes {α : Type} (c : Codec α) : Prop := ∃ b m, Message.fromBytes b = .ok m ∧ decode c m = .panic

end FcRetrieval.Codecs
