import Verif.Model.Wire
/-!
# The message kinds of `common/pkg/fcrmessages`

One definition per file: type code (type.go), struct with its tags, what `Encode…` writes into the struct and what `Decode…`
returns from it.  Pointer arguments are options; a nil pointer crashes the encoder.  A malformed identifier is decoded to a nil
pointer (the error is dropped), in a list it is a crash.
-/

namespace FcRetrieval.Codecs
open FcRetrieval.Ids (Id)
open FcRetrieval.Merkle (Hash)
open FcRetrieval.Message (Msg)
open FcRetrieval.Wire

/-- `*p`. -/
def deref {α : Type} : Option α → Res α
  | none => .panic
  | some a => .ok a

/-- basic_invalid_message_response.go:24-43 `EncodeInvalidMessageResponse`, `DecodeInvalidMessageResponse`. -/
def invalidMessageResponse : Codec (Unit) where
  code := 902
  schema := []
  toWire := fun () => do return ()
  ofWire := fun () => do return ()

/-- basic_protocol_change_request.go:24-55 `EncodeProtocolChangeRequest`, `DecodeProtocolChangeRequest`. -/
def protocolChangeRequest : Codec (Int) where
  code := 900
  schema := [("desired_version", i32)]
  toWire := fun desiredVersion => do return (desiredVersion, ())
  ofWire := fun (wDesiredVersion, ()) => do return wDesiredVersion

/-- basic_protocol_change_response.go:24-55 `EncodeProtocolChangeResponse`, `DecodeProtocolChangeResponse`. -/
def protocolChangeResponse : Codec (Bool) where
  code := 901
  schema := [("success", bool)]
  toWire := fun success => do return (success, ())
  ofWire := fun (wSuccess, ()) => do return wSuccess

/-- client_dht_discover_offer_request.go:27-79 `EncodeClientDHTDiscoverOfferRequest`, `DecodeClientDHTDiscoverOfferRequest`. -/
def clientDHTDiscoverOfferRequest : Codec (Option Id × Int × List (List (List Char)) × List Id × List Char × List Char) where
  code := 114
  schema := [("piece_cid", str), ("nonce", i64), ("gateways_digests", slice (slice str)), ("gateway_ids", slice str), ("payment_channel_address", str), ("voucher", str)]
  toWire := fun (pieceCID, nonce, gatewaysDigests, gatewayIDs, paychAddr, voucher) => do return ((← idStr pieceCID), nonce, gatewaysDigests, Ids.mapToString gatewayIDs, paychAddr, voucher, ())
  ofWire := fun (wPieceCID, wNonce, wGatewaysDigests, wGatewayIDs, wPaychAddr, wVoucher, ()) => do return (Ids.fromHex wPieceCID, wNonce, wGatewaysDigests, (← ids wGatewayIDs), wPaychAddr, wVoucher)

/-- client_dht_discover_offer_response.go:27-79 `EncodeClientDHTDiscoverOfferResponse`, `DecodeClientDHTDiscoverOfferResponse`. -/
def clientDHTDiscoverOfferResponse : Codec (Option Id × Int × List Id × List Msg × Bool × List Char) where
  code := 115
  schema := [("piece_cid", str), ("nonce", i64), ("gateway_ids", slice str), ("response", slice msg), ("payment_required", bool), ("payment_channel", str)]
  toWire := fun (pieceCID, nonce, gatewayIDs, response, paymentRequired, paymentChannel) => do return ((← idStr pieceCID), nonce, Ids.mapToString gatewayIDs, response, paymentRequired, paymentChannel, ())
  ofWire := fun (wPieceCID, wNonce, wGatewayIDs, wResponse, wPaymentRequired, wPaymentChannel, ()) => do return (Ids.fromHex wPieceCID, wNonce, (← ids wGatewayIDs), wResponse, wPaymentRequired, wPaymentChannel)

/-- client_dht_discover_request.go:26-82 `EncodeClientDHTDiscoverRequest`, `DecodeClientDHTDiscoverRequest`. -/
def clientDHTDiscoverRequest : Codec (Option Id × Int × Int × Int × Bool × List Char × List Char) where
  code := 104
  schema := [("piece_cid", str), ("nonce", i64), ("ttl", i64), ("num_dht", i64), ("incremental_results", bool), ("payment_channel_address", str), ("voucher", str)]
  toWire := fun (pieceCID, nonce, ttl, numDHT, incrementalResults, paychAddr, voucher) => do return ((← idStr pieceCID), nonce, ttl, numDHT, incrementalResults, paychAddr, voucher, ())
  ofWire := fun (wPieceCID, wNonce, wTTL, wNumDHT, wIncrementalResults, wPaychAddr, wVoucher, ()) => do return (Ids.fromHex wPieceCID, wNonce, wTTL, wNumDHT, wIncrementalResults, wPaychAddr, wVoucher)

/-- client_dht_discover_request_v2.go:26-82 `EncodeClientDHTDiscoverRequestV2`, `DecodeClientDHTDiscoverRequestV2`. -/
def clientDHTDiscoverRequestV2 : Codec (Option Id × Int × Int × Int × Bool × List Char × List Char) where
  code := 112
  schema := [("piece_cid", str), ("nonce", i64), ("ttl", i64), ("num_dht", i64), ("incremental_results", bool), ("payment_channel_address", str), ("voucher", str)]
  toWire := fun (pieceCID, nonce, ttl, numDHT, incrementalResults, paychAddr, voucher) => do return ((← idStr pieceCID), nonce, ttl, numDHT, incrementalResults, paychAddr, voucher, ())
  ofWire := fun (wPieceCID, wNonce, wTTL, wNumDHT, wIncrementalResults, wPaychAddr, wVoucher, ()) => do return (Ids.fromHex wPieceCID, wNonce, wTTL, wNumDHT, wIncrementalResults, wPaychAddr, wVoucher)

/-- client_dht_discover_response.go:26-77 `EncodeClientDHTDiscoverResponse`, `DecodeClientDHTDiscoverResponse`. -/
def clientDHTDiscoverResponse : Codec (List Id × List Msg × List Id × Int × Bool × List Char) where
  code := 105
  schema := [("contacted_gateways", slice str), ("response", slice msg), ("uncontactable_gateways", slice str), ("nonce", i64), ("payment_required", bool), ("payment_channel", str)]
  toWire := fun (contacted, response, unContactable, nonce, paymentRequired, paymentChannel) => do return (Ids.mapToString contacted, response, Ids.mapToString unContactable, nonce, paymentRequired, paymentChannel, ())
  ofWire := fun (wContacted, wResponse, wUnContactable, wNonce, wPaymentRequired, wPaymentChannel, ()) => do return ((← ids wContacted), wResponse, (← ids wUnContactable), wNonce, wPaymentRequired, wPaymentChannel)

/-- client_dht_discover_response_v2.go:26-77 `EncodeClientDHTDiscoverResponseV2`, `DecodeClientDHTDiscoverResponseV2`. -/
def clientDHTDiscoverResponseV2 : Codec (List Id × List Msg × List Id × Int × Bool × List Char) where
  code := 113
  schema := [("contacted_gateways", slice str), ("response", slice msg), ("uncontactable_gateways", slice str), ("nonce", i64), ("payment_required", bool), ("payment_channel", str)]
  toWire := fun (contacted, response, unContactable, nonce, paymentRequired, paymentChannel) => do return (Ids.mapToString contacted, response, Ids.mapToString unContactable, nonce, paymentRequired, paymentChannel, ())
  ofWire := fun (wContacted, wResponse, wUnContactable, wNonce, wPaymentRequired, wPaymentChannel, ()) => do return ((← ids wContacted), wResponse, (← ids wUnContactable), wNonce, wPaymentRequired, wPaymentChannel)

/-- client_dht_offer_ack_request.go:27-64 `EncodeClientDHTOfferAckRequest`, `DecodeClientDHTOfferAckRequest`. -/
def clientDHTOfferAckRequest : Codec (Option Id × Option Id) where
  code := 106
  schema := [("piece_cid", str), ("gateway_id", str)]
  toWire := fun (pieceCID, gatewayID) => do return ((← idStr pieceCID), (← idStr gatewayID), ())
  ofWire := fun (wPieceCID, wGatewayID, ()) => do return (Ids.fromHex wPieceCID, Ids.fromHex wGatewayID)

/-- client_dht_offer_ack_response.go:27-76 `EncodeClientDHTOfferAckResponse`, `DecodeClientDHTOfferAckResponse`. -/
def clientDHTOfferAckResponse : Codec (Option Id × Option Id × Bool × Option Msg × Option Msg) where
  code := 107
  schema := [("piece_cid", str), ("gateway_id", str), ("found", bool), ("publish_dht_offer_request", msg), ("publish_dht_offer_response", msg)]
  toWire := fun (pieceCID, gatewayID, found, publishDHTOfferRequest, publishDHTOfferResponse) => do return ((← idStr pieceCID), (← idStr gatewayID), found, (← deref publishDHTOfferRequest), (← deref publishDHTOfferResponse), ())
  ofWire := fun (wPieceCID, wGatewayID, wFound, wPublishDHTOfferRequest, wPublishDHTOfferResponse, ()) => do return (Ids.fromHex wPieceCID, Ids.fromHex wGatewayID, wFound, some wPublishDHTOfferRequest, some wPublishDHTOfferResponse)

/-- client_establishment_request.go:26-66 `EncodeClientEstablishmentRequest`, `DecodeClientEstablishmentRequest`. -/
def clientEstablishmentRequest : Codec (Option Id × List Char × Int) where
  code := 100
  schema := [("client_id", str), ("challenge", str), ("ttl", i64)]
  toWire := fun (clientID, challenge, ttl) => do return ((← idStr clientID), challenge, ttl, ())
  ofWire := fun (wClientID, wChallenge, wTTL, ()) => do return (Ids.fromHex wClientID, wChallenge, wTTL)

/-- client_establishment_response.go:26-62 `EncodeClientEstablishmentResponse`, `DecodeClientEstablishmentResponse`. -/
def clientEstablishmentResponse : Codec (Option Id × List Char) where
  code := 101
  schema := [("gateway_id", str), ("challenge", str)]
  toWire := fun (gatewayID, challenge) => do return ((← idStr gatewayID), challenge, ())
  ofWire := fun (wGatewayID, wChallenge, ()) => do return (Ids.fromHex wGatewayID, wChallenge)

/-- client_standard_discover_offer_request.go:26-78 `EncodeClientStandardDiscoverOfferRequest`, `DecodeClientStandardDiscoverOfferRequest`. -/
def clientStandardDiscoverOfferRequest : Codec (Option Id × Int × Int × List (List Char) × List Char × List Char) where
  code := 110
  schema := [("piece_cid", str), ("nonce", i64), ("ttl", i64), ("offer_digests", slice str), ("payment_channel_address", str), ("voucher", str)]
  toWire := fun (pieceCID, nonce, ttl, offerDigests, paychAddr, voucher) => do return ((← idStr pieceCID), nonce, ttl, offerDigests, paychAddr, voucher, ())
  ofWire := fun (wPieceCID, wNonce, wTTL, wOfferDigests, wPaychAddr, wVoucher, ()) => do return (Ids.fromHex wPieceCID, wNonce, wTTL, wOfferDigests, wPaychAddr, wVoucher)

/-- client_standard_discover_offer_response.go:27-83 `EncodeClientStandardDiscoverOfferResponse`, `DecodeClientStandardDiscoverOfferResponse`. -/
def clientStandardDiscoverOfferResponse : Codec (Option Id × Int × Bool × List Offer.SubOffer × List Bool × Bool × List Char) where
  code := 111
  schema := [("piece_cid", str), ("nonce", i64), ("found", bool), ("sub_cid_offers", slice subOffer), ("funded_payment_channel", slice bool), ("payment_required", bool), ("payment_channel", str)]
  toWire := fun (pieceCID, nonce, found, offers, fundedPaymentChannel, paymentRequired, paymentChannel) => do return ((← idStr pieceCID), nonce, found, offers, fundedPaymentChannel, paymentRequired, paymentChannel, ())
  ofWire := fun (wPieceCID, wNonce, wFound, wSubCIDOffers, wFundedPaymentChannel, wPaymentRequired, wPaymentChannel, ()) => do return (Ids.fromHex wPieceCID, wNonce, wFound, wSubCIDOffers, wFundedPaymentChannel, wPaymentRequired, wPaymentChannel)

/-- client_standard_discover_request.go:26-74 `EncodeClientStandardDiscoverRequest`, `DecodeClientStandardDiscoverRequest`. -/
def clientStandardDiscoverRequest : Codec (Option Id × Int × Int × List Char × List Char) where
  code := 102
  schema := [("piece_cid", str), ("nonce", i64), ("ttl", i64), ("payment_channel_address", str), ("voucher", str)]
  toWire := fun (pieceCID, nonce, ttl, paychAddr, voucher) => do return ((← idStr pieceCID), nonce, ttl, paychAddr, voucher, ())
  ofWire := fun (wPieceCID, wNonce, wTTL, wPaychAddr, wVoucher, ()) => do return (Ids.fromHex wPieceCID, wNonce, wTTL, wPaychAddr, wVoucher)

/-- client_standard_discover_request_v2.go:26-74 `EncodeClientStandardDiscoverRequestV2`, `DecodeClientStandardDiscoverRequestV2`. -/
def clientStandardDiscoverRequestV2 : Codec (Option Id × Int × Int × List Char × List Char) where
  code := 108
  schema := [("piece_cid", str), ("nonce", i64), ("ttl", i64), ("payment_channel_address", str), ("voucher", str)]
  toWire := fun (pieceCID, nonce, ttl, paychAddr, voucher) => do return ((← idStr pieceCID), nonce, ttl, paychAddr, voucher, ())
  ofWire := fun (wPieceCID, wNonce, wTTL, wPaychAddr, wVoucher, ()) => do return (Ids.fromHex wPieceCID, wNonce, wTTL, wPaychAddr, wVoucher)

/-- client_standard_discover_response.go:27-75 `EncodeClientStandardDiscoverResponse`, `DecodeClientStandardDiscoverResponse`. -/
def clientStandardDiscoverResponse : Codec (Option Id × Int × Bool × List Offer.SubOffer × List Bool) where
  code := 103
  schema := [("piece_cid", str), ("nonce", i64), ("found", bool), ("sub_cid_offers", slice subOffer), ("funded_payment_channel", slice bool)]
  toWire := fun (pieceCID, nonce, found, offers, fundedPaymentChannel) => do return ((← idStr pieceCID), nonce, found, offers, fundedPaymentChannel, ())
  ofWire := fun (wPieceCID, wNonce, wFound, wSubCIDOffers, wFundedPaymentChannel, ()) => do return (Ids.fromHex wPieceCID, wNonce, wFound, wSubCIDOffers, wFundedPaymentChannel)

/-- client_standard_discover_response_v2.go:26-82 `EncodeClientStandardDiscoverResponseV2`, `DecodeClientStandardDiscoverResponseV2`. -/
def clientStandardDiscoverResponseV2 : Codec (Option Id × Int × Bool × List (List Char) × List Bool × Bool × List Char) where
  code := 109
  schema := [("piece_cid", str), ("nonce", i64), ("found", bool), ("sub_cid_offer_digests", slice str), ("funded_payment_channel", slice bool), ("payment_required", bool), ("payment_channel", str)]
  toWire := fun (pieceCID, nonce, found, offersDigests, fundedPaymentChannel, paymentRequired, paymentChannel) => do return ((← idStr pieceCID), nonce, found, offersDigests, fundedPaymentChannel, paymentRequired, paymentChannel, ())
  ofWire := fun (wPieceCID, wNonce, wFound, wSubCIDOfferDigests, wFundedPaymentChannel, wPaymentRequired, wPaymentChannel, ()) => do return (Ids.fromHex wPieceCID, wNonce, wFound, wSubCIDOfferDigests, wFundedPaymentChannel, wPaymentRequired, wPaymentChannel)

/-- gateway_dht_discover_offer_request.go:26-74 `EncodeGatewayDHTDiscoverOfferRequest`, `DecodeGatewayDHTDiscoverOfferRequest`. -/
def gatewayDHTDiscoverOfferRequest : Codec (Option Id × Int × List (List Char) × List Char × List Char) where
  code := 209
  schema := [("piece_cid", str), ("nonce", i64), ("offer_digests", slice str), ("payment_channel_address", str), ("voucher", str)]
  toWire := fun (pieceCID, nonce, offerDigests, paychAddr, voucher) => do return ((← idStr pieceCID), nonce, offerDigests, paychAddr, voucher, ())
  ofWire := fun (wPieceCID, wNonce, wOfferDigests, wPaychAddr, wVoucher, ()) => do return (Ids.fromHex wPieceCID, wNonce, wOfferDigests, wPaychAddr, wVoucher)

/-- gateway_dht_discover_offer_response.go:27-83 `EncodeGatewayDHTDiscoverOfferResponse`, `DecodeGatewayDHTDiscoverOfferResponse`. -/
def gatewayDHTDiscoverOfferResponse : Codec (Option Id × Int × Bool × List Offer.SubOffer × List Bool × Bool × List Char) where
  code := 210
  schema := [("piece_cid", str), ("nonce", i64), ("found", bool), ("sub_cid_offers", slice subOffer), ("funded_payment_channel", slice bool), ("payment_required", bool), ("payment_channel", str)]
  toWire := fun (pieceCID, nonce, found, offers, fundedPaymentChannel, paymentRequired, paymentChannel) => do return ((← idStr pieceCID), nonce, found, offers, fundedPaymentChannel, paymentRequired, paymentChannel, ())
  ofWire := fun (wPieceCID, wNonce, wFound, wSubCIDOffers, wFundedPaymentChannel, wPaymentRequired, wPaymentChannel, ()) => do return (Ids.fromHex wPieceCID, wNonce, wFound, wSubCIDOffers, wFundedPaymentChannel, wPaymentRequired, wPaymentChannel)

/-- gateway_dht_discover_request.go:27-80 `EncodeGatewayDHTDiscoverRequest`, `DecodeGatewayDHTDiscoverRequest`. -/
def gatewayDHTDiscoverRequest : Codec (Option Id × Option Id × Int × Int × List Char × List Char) where
  code := 203
  schema := [("gateway_id", str), ("piece_cid", str), ("nonce", i64), ("ttl", i64), ("payment_channel_address", str), ("voucher", str)]
  toWire := fun (gatewayID, pieceCID, nonce, ttl, paychAddr, voucher) => do return ((← idStr gatewayID), (← idStr pieceCID), nonce, ttl, paychAddr, voucher, ())
  ofWire := fun (wGatewayID, wPieceCID, wNonce, wTTL, wPaychAddr, wVoucher, ()) => do return (Ids.fromHex wGatewayID, Ids.fromHex wPieceCID, wNonce, wTTL, wPaychAddr, wVoucher)

/-- gateway_dht_discover_request_v2.go:27-80 `EncodeGatewayDHTDiscoverRequestV2`, `DecodeGatewayDHTDiscoverRequestV2`. -/
def gatewayDHTDiscoverRequestV2 : Codec (Option Id × Option Id × Int × Int × List Char × List Char) where
  code := 207
  schema := [("gateway_id", str), ("piece_cid", str), ("nonce", i64), ("ttl", i64), ("payment_channel_address", str), ("voucher", str)]
  toWire := fun (gatewayID, pieceCID, nonce, ttl, paychAddr, voucher) => do return ((← idStr gatewayID), (← idStr pieceCID), nonce, ttl, paychAddr, voucher, ())
  ofWire := fun (wGatewayID, wPieceCID, wNonce, wTTL, wPaychAddr, wVoucher, ()) => do return (Ids.fromHex wGatewayID, Ids.fromHex wPieceCID, wNonce, wTTL, wPaychAddr, wVoucher)

/-- gateway_dht_discover_response.go:27-75 `EncodeGatewayDHTDiscoverResponse`, `DecodeGatewayDHTDiscoverResponse`. -/
def gatewayDHTDiscoverResponse : Codec (Option Id × Int × Bool × List Offer.SubOffer × List Bool) where
  code := 204
  schema := [("piece_cid", str), ("nonce", i64), ("found", bool), ("sub_cid_offers", slice subOffer), ("funded_payment_channel", slice bool)]
  toWire := fun (pieceCID, nonce, found, offers, fundedPaymentChannel) => do return ((← idStr pieceCID), nonce, found, offers, fundedPaymentChannel, ())
  ofWire := fun (wPieceCID, wNonce, wFound, wSubCIDOffers, wFundedPaymentChannel, ()) => do return (Ids.fromHex wPieceCID, wNonce, wFound, wSubCIDOffers, wFundedPaymentChannel)

/-- gateway_dht_discover_response_v2.go:26-82 `EncodeGatewayDHTDiscoverResponseV2`, `DecodeGatewayDHTDiscoverResponseV2`. -/
def gatewayDHTDiscoverResponseV2 : Codec (Option Id × Int × Bool × List (List Char) × List Bool × Bool × List Char) where
  code := 208
  schema := [("piece_cid", str), ("nonce", i64), ("found", bool), ("sub_cid_offer_digest", slice str), ("funded_payment_channel", slice bool), ("payment_required", bool), ("payment_channel", str)]
  toWire := fun (pieceCID, nonce, found, offers, fundedPaymentChannel, paymentRequired, paymentChannel) => do return ((← idStr pieceCID), nonce, found, offers, fundedPaymentChannel, paymentRequired, paymentChannel, ())
  ofWire := fun (wPieceCID, wNonce, wFound, wSubCIDOfferDigests, wFundedPaymentChannel, wPaymentRequired, wPaymentChannel, ()) => do return (Ids.fromHex wPieceCID, wNonce, wFound, wSubCIDOfferDigests, wFundedPaymentChannel, wPaymentRequired, wPaymentChannel)

/-- gateway_list_dht_offer_ack.go:24-55 `EncodeGatewayListDHTOfferAck`, `DecodeGatewayListDHTOfferAck`. -/
def gatewayListDHTOfferAck : Codec (List Msg) where
  code := 202
  schema := [("published_dht_offers_ack", slice msg)]
  toWire := fun publishedDHTOffersAck => do return (publishedDHTOffersAck, ())
  ofWire := fun (wPublishedDHTOffersAck, ()) => do return wPublishedDHTOffersAck

/-- gateway_list_dht_offer_request.go:28-86 `EncodeGatewayListDHTOfferRequest`, `DecodeGatewayListDHTOfferRequest`. -/
def gatewayListDHTOfferRequest : Codec (Option Id × Option Id × Option Id × List Char × List Char × List Char × Option Merkle.Proof) where
  code := 200
  schema := [("gateway_id", str), ("cid_min", str), ("cid_max", str), ("block_hash", str), ("transaction_receipt", str), ("merkle_root", str), ("merkle_proof", proof)]
  toWire := fun (gatewayID, cidMin, cidMax, blockHash, transactionReceipt, merkleRoot, merkleProof) => do return ((← idStr gatewayID), (← idStr cidMin), (← idStr cidMax), blockHash, transactionReceipt, merkleRoot, (← deref merkleProof), ())
  ofWire := fun (wGatewayID, wCIDMin, wCIDMax, wBlockHash, wTransactionReceipt, wMerkleRoot, wMerkleProof, ()) => do return (Ids.fromHex wGatewayID, Ids.fromHex wCIDMin, Ids.fromHex wCIDMax, wBlockHash, wTransactionReceipt, wMerkleRoot, some wMerkleProof)

/-- gateway_list_dht_offer_response.go:24-55 `EncodeGatewayListDHTOfferResponse`, `DecodeGatewayListDHTOfferResponse`. -/
def gatewayListDHTOfferResponse : Codec (List Msg) where
  code := 201
  schema := [("published_dht_offers", slice msg)]
  toWire := fun publishedDHTOffers => do return (publishedDHTOffers, ())
  ofWire := fun (wPublishedDHTOffers, ()) => do return wPublishedDHTOffers

/-- gateway_notify_provider_group_cid_offer_supported_request.go:25-59 `EncodeGatewayNotifyProviderGroupCIDOfferSupportRequest`, `DecodeGatewayNotifyProviderGroupCIDOfferSupportRequest`. -/
def gatewayNotifyProviderGroupCIDOfferSupportRequest : Codec (Option Id × Bool) where
  code := 205
  schema := [("gateway_id", str), ("group_cid_offer_supported", bool)]
  toWire := fun (gatewayID, groupCIDOfferSupported) => do return ((← idStr gatewayID), groupCIDOfferSupported, ())
  ofWire := fun (wGatewayID, wGroupCIDOfferSupported, ()) => do return (Ids.fromHex wGatewayID, wGroupCIDOfferSupported)

/-- gateway_notify_provider_group_cid_offer_supported_response.go:23-52 `EncodeGatewayNotifyProviderGroupCIDOfferSupportResponse`, `DecodeGatewayNotifyProviderGroupCIDOfferSupportResponse` (the decoder returns the constant true). -/
def gatewayNotifyProviderGroupCIDOfferSupportResponse : Codec (Bool) where
  code := 206
  schema := [("acknowledged", bool)]
  toWire := fun acknowledged => do return (acknowledged, ())
  ofWire := fun (_, ()) => do return true

/-- gateway_ping_request.go:27-67 `EncodeGatewayPingRequest`, `DecodeGatewayPingRequest`. -/
def gatewayPingRequest : Codec (Option Id × Int × Int) where
  code := 205
  schema := [("gateway_id", str), ("nonce", i64), ("ttl", i64)]
  toWire := fun (gatewayID, nonce, ttl) => do return ((← idStr gatewayID), nonce, ttl, ())
  ofWire := fun (wGatewayID, wNonce, wTTL, ()) => do return (Ids.fromHex wGatewayID, wNonce, wTTL)

/-- gateway_ping_response.go:24-64 `EncodeGatewayPingResponse`, `DecodeGatewayPingResponse` (the decoder returns the constant true). -/
def gatewayPingResponse : Codec (Int × Bool) where
  code := 206
  schema := [("nonce", i64), ("isAlive", bool)]
  toWire := fun (nonce, alive) => do return (nonce, alive, ())
  ofWire := fun (wNonce, _, ()) => do return (wNonce, true)

/-- gatewayadmin_force_refresh_request.go:24-53 `EncodeGatewayAdminForceRefreshRequest`, `DecodeGatewayAdminForceRefreshRequest`. -/
def gatewayAdminForceRefreshRequest : Codec (Bool) where
  code := 406
  schema := [("refresh", bool)]
  toWire := fun refresh => do return (refresh, ())
  ofWire := fun (wRefresh, ()) => do return wRefresh

/-- gatewayadmin_force_refresh_response.go:24-55 `EncodeGatewayAdminForceRefreshResponse`, `DecodeGatewayAdminForceRefreshResponse`. -/
def gatewayAdminForceRefreshResponse : Codec (Bool) where
  code := 407
  schema := [("refreshed", bool)]
  toWire := fun refreshed => do return (refreshed, ())
  ofWire := fun (wRefreshed, ()) => do return wRefreshed

/-- gatewayadmin_get_reputation_request.go:26-58 `EncodeGatewayAdminGetReputationRequest`, `DecodeGatewayAdminGetReputationRequest`. -/
def gatewayAdminGetReputationRequest : Codec (Option Id) where
  code := 402
  schema := [("client_id", str)]
  toWire := fun clientID => do return ((← idStr clientID), ())
  ofWire := fun (wClientID, ()) => do return Ids.fromHex wClientID

/-- gatewayadmin_get_reputation_response.go:26-66 `EncodeGatewayAdminGetReputationResponse`, `DecodeGatewayAdminGetReputationResponse`. -/
def gatewayAdminGetReputationResponse : Codec (Option Id × Int × Bool) where
  code := 403
  schema := [("client_id", str), ("reputation", i64), ("exists", bool)]
  toWire := fun (clientID, reputation, found) => do return ((← idStr clientID), reputation, found, ())
  ofWire := fun (wClientID, wReputation, wExists, ()) => do return (Ids.fromHex wClientID, wReputation, wExists)

/-- gatewayadmin_initialise_key_request.go:27-72 `EncodeGatewayAdminInitialiseKeyRequest`, `DecodeGatewayAdminInitialiseKeyRequest`. -/
def gatewayAdminInitialiseKeyRequest : Codec (Option Id × Option Crypto.KeyPair × Option Crypto.KeyVersion) where
  code := 400
  schema := [("gateway_id", str), ("private_key", str), ("private_key_version", u32)]
  toWire := fun (nodeID, privateKey, keyVersion) => do return ((← idStr nodeID), Crypto.encodePrivateKey (← deref privateKey), (← deref keyVersion), ())
  ofWire := fun (wGatewayID, wPrivateKey, wPrivateKeyVersion, ()) => do return (Ids.fromHex wGatewayID, some (← Crypto.decodePrivateKey wPrivateKey), some (Crypto.decodeKeyVersion wPrivateKeyVersion))

/-- gatewayadmin_initialise_key_request_v2.go:28-85 `EncodeGatewayAdminInitialiseKeyRequestV2`, `DecodeGatewayAdminInitialiseKeyRequestV2`. -/
def gatewayAdminInitialiseKeyRequestV2 : Codec (Option Id × Option Crypto.KeyPair × Option Crypto.KeyVersion × List Char × List Char × List Char) where
  code := 412
  schema := [("gateway_id", str), ("private_key", str), ("private_key_version", u32), ("wallet_private_key", str), ("lotus_ap", str), ("lotus_auth_token", str)]
  toWire := fun (nodeID, privateKey, keyVersion, walletPrivateKey, lotusAP, lotusAuthToken) => do return ((← idStr nodeID), Crypto.encodePrivateKey (← deref privateKey), (← deref keyVersion), walletPrivateKey, lotusAP, lotusAuthToken, ())
  ofWire := fun (wGatewayID, wPrivateKey, wPrivateKeyVersion, wWalletPrivateKey, wLotusAP, wLotusAuthToken, ()) => do return (Ids.fromHex wGatewayID, some (← Crypto.decodePrivateKey wPrivateKey), some (Crypto.decodeKeyVersion wPrivateKeyVersion), wWalletPrivateKey, wLotusAP, wLotusAuthToken)

/-- gatewayadmin_initialise_key_response.go:24-55 `EncodeGatewayAdminInitialiseKeyResponse`, `DecodeGatewayAdminInitialiseKeyResponse`. -/
def gatewayAdminInitialiseKeyResponse : Codec (Bool) where
  code := 401
  schema := [("success", bool)]
  toWire := fun success => do return (success, ())
  ofWire := fun (wSuccess, ()) => do return wSuccess

/-- gatewayadmin_list_dht_offer_request.go:24-53 `EncodeGatewayAdminListDHTOfferRequest`, `DecodeGatewayAdminListDHTOfferRequest`. -/
def gatewayAdminListDHTOfferRequest : Codec (Bool) where
  code := 410
  schema := [("refresh", bool)]
  toWire := fun refresh => do return (refresh, ())
  ofWire := fun (wRefresh, ()) => do return wRefresh

/-- gatewayadmin_list_dht_offer_response.go:24-53 `EncodeGatewayAdminListDHTOfferResponse`, `DecodeGatewayAdminListDHTOfferResponse`. -/
def gatewayAdminListDHTOfferResponse : Codec (Bool) where
  code := 411
  schema := [("refreshed", bool)]
  toWire := fun refreshed => do return (refreshed, ())
  ofWire := fun (wRefreshed, ()) => do return wRefreshed

/-- gatewayadmin_set_reputation_request.go:26-62 `EncodeGatewayAdminSetReputationRequest`, `DecodeGatewayAdminSetReputationRequest`. -/
def gatewayAdminSetReputationRequest : Codec (Option Id × Int) where
  code := 404
  schema := [("client_id", str), ("reputation", i64)]
  toWire := fun (clientID, reputation) => do return ((← idStr clientID), reputation, ())
  ofWire := fun (wClientID, wReputation, ()) => do return (Ids.fromHex wClientID, wReputation)

/-- gatewayadmin_set_reputation_response.go:26-66 `EncodeGatewayAdminSetReputationResponse`, `DecodeGatewayAdminSetReputationResponse`. -/
def gatewayAdminSetReputationResponse : Codec (Option Id × Int × Bool) where
  code := 405
  schema := [("client_id", str), ("reputation", i64), ("exists", bool)]
  toWire := fun (clientID, reputation, found) => do return ((← idStr clientID), reputation, found, ())
  ofWire := fun (wClientID, wReputation, wExists, ()) => do return (Ids.fromHex wClientID, wReputation, wExists)

/-- gatewayadmin_update_group_cid_offer_support_request.go:25-59 `EncodeUpdateGatewayGroupCIDOfferSupportRequest`, `DecodeUpdateGatewayGroupCIDOfferSupportRequest`. -/
def updateGatewayGroupCIDOfferSupportRequest : Codec (Option Id × List Id) where
  code := 408
  schema := [("gateway_id", str), ("provider_ids", slice str)]
  toWire := fun (nodeID, providerIDs) => do return ((← idStr nodeID), Ids.mapToString providerIDs, ())
  ofWire := fun (wGatewayID, wProviderIDs, ()) => do return (Ids.fromHex wGatewayID, (← ids wProviderIDs))

/-- gatewayadmin_update_group_cid_offer_support_response.go:23-52 `EncodeUpdateGatewayGroupCIDOfferSupportResponse`, `DecodeUpdateGatewayGroupCIDOfferSupportResponse`. -/
def updateGatewayGroupCIDOfferSupportResponse : Codec (Bool) where
  code := 409
  schema := [("success", bool)]
  toWire := fun success => do return (success, ())
  ofWire := fun (wSuccess, ()) => do return wSuccess

/-- provider_publish_dht_offer_request.go:27-75 `EncodeProviderPublishDHTOfferRequest`, `DecodeProviderPublishDHTOfferRequest` (the count of offers is written and not read back; offers with other than one CID are refused). -/
def providerPublishDHTOfferRequest (H : Hash) : Codec (Option Id × Int × List Offer.CidOffer) where
  code := 302
  schema := [("provider_id", str), ("nonce", i64), ("num_of_offers", i64), ("single_offers", slice (offer H))]
  toWire := fun (providerID, nonce, offers) => do return ((← idStr providerID), nonce, (offers.length : Int), offers, ())
  ofWire := fun (wProviderID, wNonce, _, wOffers, ()) => do if wOffers.any (fun o => o.cids.length ≠ 1) then Res.err else return (Ids.fromHex wProviderID, wNonce, wOffers)

/-- provider_publish_dht_offer_response.go:24-59 `EncodeProviderPublishDHTOfferResponse`, `DecodeProviderPublishDHTOfferResponse`. -/
def providerPublishDHTOfferResponse : Codec (Int × List Char) where
  code := 303
  schema := [("nonce", i64), ("signature", str)]
  toWire := fun (nonce, signature) => do return (nonce, signature, ())
  ofWire := fun (wNonce, wSignature, ()) => do return (wNonce, wSignature)

/-- provider_publish_group_offer_request.go:27-67 `EncodeProviderPublishGroupOfferRequest`, `DecodeProviderPublishGroupOfferRequest`. -/
def providerPublishGroupOfferRequest (H : Hash) : Codec (Option Id × Int × Option Offer.CidOffer) where
  code := 300
  schema := [("provider_id", str), ("nonce", i64), ("offer", offer H)]
  toWire := fun (providerID, nonce, offer) => do return ((← idStr providerID), nonce, (← deref offer), ())
  ofWire := fun (wProviderID, wNonce, wOffer, ()) => do return (Ids.fromHex wProviderID, wNonce, some wOffer)

/-- provider_publish_group_offer_response.go:26-62 `EncodeProviderPublishGroupOfferResponse`, `DecodeProviderPublishGroupOfferResponse` (the encoder takes the identifier by value: never nil). -/
def providerPublishGroupOfferResponse : Codec (Option Id × List Char) where
  code := 301
  schema := [("gateway_id", str), ("digest", str)]
  toWire := fun (gatewayID, digest) => do return ((← idStr gatewayID), digest, ())
  ofWire := fun (wGatewaydID, wDigest, ()) => do return (Ids.fromHex wGatewaydID, wDigest)

/-- provideradmin_force_refresh_request.go:24-53 `EncodeProviderAdminForceRefreshRequest`, `DecodeProviderAdminForceRefreshRequest`. -/
def providerAdminForceRefreshRequest : Codec (Bool) where
  code := 508
  schema := [("refresh", bool)]
  toWire := fun refresh => do return (refresh, ())
  ofWire := fun (wRefresh, ()) => do return wRefresh

/-- provideradmin_force_refresh_response.go:24-55 `EncodeProviderAdminForceRefreshResponse`, `DecodeProviderAdminForceRefreshResponse`. -/
def providerAdminForceRefreshResponse : Codec (Bool) where
  code := 509
  schema := [("refreshed", bool)]
  toWire := fun refreshed => do return (refreshed, ())
  ofWire := fun (wRefreshed, ()) => do return wRefreshed

/-- provideradmin_get_published_offer_request.go:26-57 `EncodeProviderAdminGetPublishedOfferRequest`, `DecodeProviderAdminGetPublishedOfferRequest`. -/
def providerAdminGetPublishedOfferRequest : Codec (List Id) where
  code := 506
  schema := [("gateway_id", slice str)]
  toWire := fun gatewayIDs => do return (Ids.mapToString gatewayIDs, ())
  ofWire := fun (wGatewayIDs, ()) => do return (← ids wGatewayIDs)

/-- provideradmin_get_published_offer_response.go:26-61 `EncodeProviderAdminGetPublishedOfferResponse`, `DecodeProviderAdminGetPublishedOfferResponse`. -/
def providerAdminGetPublishedOfferResponse (H : Hash) : Codec (Bool × List Offer.CidOffer) where
  code := 507
  schema := [("exists", bool), ("cid_offers", slice (offer H))]
  toWire := fun (found, offers) => do return (found, offers, ())
  ofWire := fun (wExists, wOffers, ()) => do return (wExists, wOffers)

/-- provideradmin_initialise_key_request.go:27-72 `EncodeProviderAdminInitialiseKeyRequest`, `DecodeProviderAdminInitialiseKeyRequest`. -/
def providerAdminInitialiseKeyRequest : Codec (Option Id × Option Crypto.KeyPair × Option Crypto.KeyVersion) where
  code := 500
  schema := [("provider_id", str), ("private_key", str), ("private_key_version", u32)]
  toWire := fun (nodeID, privateKey, keyVersion) => do return ((← idStr nodeID), Crypto.encodePrivateKey (← deref privateKey), (← deref keyVersion), ())
  ofWire := fun (wProviderID, wPrivateKey, wPrivateKeyVersion, ()) => do return (Ids.fromHex wProviderID, some (← Crypto.decodePrivateKey wPrivateKey), some (Crypto.decodeKeyVersion wPrivateKeyVersion))

/-- provideradmin_initialise_key_request_v2.go:28-85 `EncodeProviderAdminInitialiseKeyRequestV2`, `DecodeProviderAdminInitialiseKeyRequestV2`. -/
def providerAdminInitialiseKeyRequestV2 : Codec (Option Id × Option Crypto.KeyPair × Option Crypto.KeyVersion × List Char × List Char × List Char) where
  code := 510
  schema := [("provider_id", str), ("private_key", str), ("private_key_version", u32), ("wallet_private_key", str), ("lotus_ap", str), ("lotus_auth_token", str)]
  toWire := fun (nodeID, privateKey, keyVersion, walletPrivateKey, lotusAP, lotusAuthToken) => do return ((← idStr nodeID), Crypto.encodePrivateKey (← deref privateKey), (← deref keyVersion), walletPrivateKey, lotusAP, lotusAuthToken, ())
  ofWire := fun (wProviderID, wPrivateKey, wPrivateKeyVersion, wWalletPrivateKey, wLotusAP, wLotusAuthToken, ()) => do return (Ids.fromHex wProviderID, some (← Crypto.decodePrivateKey wPrivateKey), some (Crypto.decodeKeyVersion wPrivateKeyVersion), wWalletPrivateKey, wLotusAP, wLotusAuthToken)

/-- provideradmin_initialise_key_response.go:24-55 `EncodeProviderAdminInitialiseKeyResponse`, `DecodeProviderAdminInitialiseKeyResponse`. -/
def providerAdminInitialiseKeyResponse : Codec (Bool) where
  code := 501
  schema := [("success", bool)]
  toWire := fun success => do return (success, ())
  ofWire := fun (wSuccess, ()) => do return wSuccess

/-- provideradmin_publish_dht_offer_request.go:26-69 `EncodeProviderAdminPublishDHTOfferRequest`, `DecodeProviderAdminPublishDHTOfferRequest`. -/
def providerAdminPublishDHTOfferRequest : Codec (List Id × List Nat × List Int × List Nat) where
  code := 504
  schema := [("cids", slice str), ("price", slice u64), ("expiry", slice i64), ("qos", slice u64)]
  toWire := fun (cids, price, expiry, qos) => do return (Ids.mapToString cids, price, expiry, qos, ())
  ofWire := fun (wCIDs, wPrice, wExpiry, wQoS, ()) => do return ((← ids wCIDs), wPrice, wExpiry, wQoS)

/-- provideradmin_publish_dht_offer_response.go:24-55 `EncodeProviderAdminPublishDHTOfferResponse`, `DecodeProviderAdminPublishDHTOfferResponse`. -/
def providerAdminPublishDHTOfferResponse : Codec (Bool) where
  code := 505
  schema := [("received", bool)]
  toWire := fun received => do return (received, ())
  ofWire := fun (wReceived, ()) => do return wReceived

/-- provideradmin_publish_group_offer_request.go:26-69 `EncodeProviderAdminPublishGroupOfferRequest`, `DecodeProviderAdminPublishGroupOfferRequest`. -/
def providerAdminPublishGroupOfferRequest : Codec (List Id × Nat × Int × Nat) where
  code := 502
  schema := [("cids", slice str), ("price", u64), ("expiry", i64), ("qos", u64)]
  toWire := fun (cids, price, expiry, qos) => do return (Ids.mapToString cids, price, expiry, qos, ())
  ofWire := fun (wCIDs, wPrice, wExpiry, wQoS, ()) => do return ((← ids wCIDs), wPrice, wExpiry, wQoS)

/-- provideradmin_publish_group_offer_response.go:24-55 `EncodeProviderAdminPublishGroupOfferResponse`, `DecodeProviderAdminPublishGroupOfferResponse`. -/
def providerAdminPublishGroupOfferResponse : Codec (Bool) where
  code := 503
  schema := [("received", bool)]
  toWire := fun received => do return (received, ())
  ofWire := fun (wReceived, ()) => do return wReceived

end FcRetrieval.Codecs
