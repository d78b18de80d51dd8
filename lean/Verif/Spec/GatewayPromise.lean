import Verif.Spec.GatewayLife
/-!
# Specification vocabulary for what the protocol's documentation promises about gateways
-/

namespace FcRetrieval.GatewayLife
open FcRetrieval.Ids (Id)
open FcRetrieval.Message (Msg)
open FcRetrieval.Wire (decode)
open FcRetrieval.Codecs
open FcRetrieval.GatewayAdmin (Env Node)

variable {Sig : Type}

/-- The message says that there is no offer for the cid: it is an answer to one of the six kinds of discovery requests, names the cid, and its field
`found` is false. -/
def Denies (x : Msg) (cid : Id) : Prop :=
  (∃ n os f, decode clientStandardDiscoverResponse x = .ok (some cid, n, false, os, f)) ∨
  (∃ n ds f p c, decode clientStandardDiscoverResponseV2 x = .ok (some cid, n, false, ds, f, p, c)) ∨
  (∃ n os f p c, decode clientStandardDiscoverOfferResponse x = .ok (some cid, n, false, os, f, p, c)) ∨
  (∃ n os f, decode gatewayDHTDiscoverResponse x = .ok (some cid, n, false, os, f)) ∨
  (∃ n ds f p c, decode gatewayDHTDiscoverResponseV2 x = .ok (some cid, n, false, ds, f, p, c)) ∨
  (∃ n os f p c, decode gatewayDHTDiscoverOfferResponse x = .ok (some cid, n, false, os, f, p, c))

/-- The payment channel and the voucher, as text, that a request for a paid service carries. -/
def carries : Gateway.Kind → Msg → Option (List Char × List Char)
  | .standardV2, m => match decode clientStandardDiscoverRequestV2 m with | .ok (_, _, _, ch, v) => some (ch, v) | _ => none
  | .standardOffer, m => match decode clientStandardDiscoverOfferRequest m with | .ok (_, _, _, _, ch, v) => some (ch, v) | _ => none
  | .dhtV2, m => match decode clientDHTDiscoverRequestV2 m with | .ok (_, _, _, _, _, ch, v) => some (ch, v) | _ => none
  | .dhtOffer, m => match decode clientDHTDiscoverOfferRequest m with | .ok (_, _, _, _, ch, v) => some (ch, v) | _ => none
  | .peerDhtV2, m => match decode gatewayDHTDiscoverRequestV2 m with | .ok (_, _, _, _, ch, v) => some (ch, v) | _ => none
  | .peerDhtOffer, m => match decode gatewayDHTDiscoverOfferRequest m with | .ok (_, _, _, ch, v) => some (ch, v) | _ => none
  | _, _ => none

/-- The kinds of requests that have to be signed by their sender. -/
def checksSender : Gateway.Kind → Bool
  | .peerDht | .peerDhtV2 | .publishDht | .publishGroup => true
  | _ => false

/-- The kind of message that answers a kind of request: common/pkg/fcrmessages/type.go. -/
def answerCode : Gateway.Kind → Int
  | .establishment => clientEstablishmentResponse.code
  | .standard => clientStandardDiscoverResponse.code
  | .standardV2 => clientStandardDiscoverResponseV2.code
  | .standardOffer => clientStandardDiscoverOfferResponse.code
  | .dht => clientDHTDiscoverResponse.code
  | .dhtV2 => clientDHTDiscoverResponseV2.code
  | .dhtOffer => clientDHTDiscoverOfferResponse.code
  | .peerDht => gatewayDHTDiscoverResponse.code
  | .peerDhtV2 => gatewayDHTDiscoverResponseV2.code
  | .peerDhtOffer => gatewayDHTDiscoverOfferResponse.code
  | .publishDht => providerPublishDHTOfferResponse.code
  | .publishGroup => providerPublishGroupOfferResponse.code

end FcRetrieval.GatewayLife
