import Verif.Lemmas.Wire
/-!
# C30: every message kind is decoded to what was encoded

One theorem per kind: for all arguments in the range of their Go types (identifiers non-nil and of 32 bytes, offers built by
the constructor, keys private keys of the one algorithm), encoding, signing, sending, receiving and decoding returns exactly the
arguments.  The two acknowledgements whose decoder ignores the message are `C30_refuted`.
-/
set_option linter.unusedSimpArgs false

namespace FcRetrieval.Codecs
open FcRetrieval.Ids (Id)
open FcRetrieval.Merkle (Hash exId exId_proper)
open FcRetrieval.Message (Msg Protocol)
open FcRetrieval.Wire

/-! ## example values -/

theorem defaultProtocolOk : ProtocolOk Message.defaultProtocol := by
  refine ⟨⟨by decide, by decide⟩, ?_⟩
  intro l hl n hn
  simp [Message.defaultProtocol] at hl
  subst hl
  simp at hn
  subst hn
  exact ⟨by decide, by decide⟩
theorem exIdOk (n : UInt8) : IdOk (some (exId n)) := ⟨_, rfl, exId_proper n⟩
theorem exIdsOk : IdsOk [exId 3, exId 4] := by
  intro p hp
  simp at hp
  rcases hp with rfl | rfl <;> exact exId_proper _
theorem exMsgsOk : ∀ x ∈ [Message.exMsg, Message.exMsg], Message.InRange x := by
  intro x hx
  simp at hx
  subst hx
  exact Message.exMsg_inRange
/-- A sub-offer for the second CID of the example offer. -/
def exSub : Offer.SubOffer := Offer.subOffer Merkle.toyHash Offer.exOffer (exId 2)
theorem exSubsOk : ∀ x ∈ [exSub], Offer.SubInRange x := by
  intro x hx
  simp at hx
  subst hx
  exact Offer.exSub_inRange
theorem exOffersOk : ∀ x ∈ [Offer.exOffer], Offer.Built Merkle.toyHash x := by
  intro x hx
  simp at hx
  subst hx
  exact Offer.exOffer_built
/-- An offer for one CID. -/
def exSingle : Offer.CidOffer := { Offer.exOffer with cids := [exId 2], merkleRoot := (Merkle.rootHex Merkle.toyHash [exId 2]).getD [] }
theorem exSinglesOk : ∀ x ∈ [exSingle], Offer.Built Merkle.toyHash x := by
  intro x hx
  simp at hx
  subst hx
  refine ⟨⟨⟨exId 9, rfl, exId_proper 9⟩, ?_, by decide, by decide, by decide, by decide⟩, by simp [exSingle], by decide +kernel⟩
  intro c hc
  simp [exSingle] at hc
  subst hc
  exact exId_proper 2
/-- The proof of that sub-offer. -/
def exProof : Merkle.Proof := exSub.merkleProof
theorem exProofOk : ProofOk exProof := by
  obtain ⟨_, _, _, _, _, _, h1, h2, h3⟩ := exSubsOk exSub (by simp)
  refine ⟨fun l hl n hn => ?_, h2, h3⟩
  have := h1 l hl n hn
  exact ⟨by omega, by omega⟩

/-! ## round trips -/

/-- `EncodeInvalidMessageResponse` and its decoder. -/
theorem C30_invalidMessageResponse (pr : Protocol) (hpr : ProtocolOk pr)  :
    Delivers invalidMessageResponse pr () := by
  exact delivers_of invalidMessageResponse pr hpr _ () (by decide +kernel) (show inI32 902 from ⟨by decide, by decide⟩) rfl trivial rfl
example : Delivers invalidMessageResponse Message.defaultProtocol () :=
  C30_invalidMessageResponse _ defaultProtocolOk

/-- `EncodeProtocolChangeRequest` and its decoder. -/
theorem C30_protocolChangeRequest (pr : Protocol) (hpr : ProtocolOk pr) (desiredVersion : Int)
    (h_desiredVersion : inI32 desiredVersion) :
    Delivers protocolChangeRequest pr desiredVersion := by
  refine delivers_of protocolChangeRequest pr hpr _ (desiredVersion, ()) (by decide +kernel) (show inI32 900 from ⟨by decide, by decide⟩) rfl ⟨good_i32 h_desiredVersion, trivial⟩ ?_
  rfl
example : Delivers protocolChangeRequest Message.defaultProtocol 2 :=
  C30_protocolChangeRequest _ defaultProtocolOk 2 (⟨by decide, by decide⟩)

/-- `EncodeProtocolChangeResponse` and its decoder. -/
theorem C30_protocolChangeResponse (pr : Protocol) (hpr : ProtocolOk pr) (success : Bool) :
    Delivers protocolChangeResponse pr success := by
  refine delivers_of protocolChangeResponse pr hpr _ (success, ()) (by decide +kernel) (show inI32 901 from ⟨by decide, by decide⟩) rfl ⟨good_bool _, trivial⟩ ?_
  rfl
example : Delivers protocolChangeResponse Message.defaultProtocol false :=
  C30_protocolChangeResponse _ defaultProtocolOk false

/-- `EncodeClientDHTDiscoverOfferRequest` and its decoder. -/
theorem C30_clientDHTDiscoverOfferRequest (pr : Protocol) (hpr : ProtocolOk pr) (pieceCID : Option Id) (nonce : Int) (gatewaysDigests : List (List (List Char))) (gatewayIDs : List Id) (paychAddr : List Char) (voucher : List Char)
    (h_pieceCID : IdOk pieceCID) (h_nonce : inI64 nonce) (h_gatewayIDs : IdsOk gatewayIDs) :
    Delivers clientDHTDiscoverOfferRequest pr (pieceCID, nonce, gatewaysDigests, gatewayIDs, paychAddr, voucher) := by
  obtain ⟨q_pieceCID, rfl, g_pieceCID⟩ := h_pieceCID
  refine delivers_of clientDHTDiscoverOfferRequest pr hpr _ (Ids.toStr q_pieceCID, nonce, gatewaysDigests, Ids.mapToString gatewayIDs, paychAddr, voucher, ()) (by decide +kernel) (show inI32 114 from ⟨by decide, by decide⟩) rfl ⟨good_str _, good_i64 h_nonce, good_slice (slice str) _ (fun _ _ => good_slice str _ (fun _ _ => good_str _)), good_slice str _ (fun _ _ => good_str _), good_str _, good_str _, trivial⟩ ?_
  simp [clientDHTDiscoverOfferRequest, Ids.fromHex_toStr g_pieceCID, ids_toString h_gatewayIDs]
example : Delivers clientDHTDiscoverOfferRequest Message.defaultProtocol ((some (exId 2)), (-7), [["ab".toList], []], [exId 3, exId 4], "a\"b".toList, "a\"b".toList) :=
  C30_clientDHTDiscoverOfferRequest _ defaultProtocolOk (some (exId 2)) (-7) [["ab".toList], []] [exId 3, exId 4] "a\"b".toList "a\"b".toList (exIdOk 2) (⟨by decide, by decide⟩) (exIdsOk)

/-- `EncodeClientDHTDiscoverOfferResponse` and its decoder. -/
theorem C30_clientDHTDiscoverOfferResponse (pr : Protocol) (hpr : ProtocolOk pr) (pieceCID : Option Id) (nonce : Int) (gatewayIDs : List Id) (response : List Msg) (paymentRequired : Bool) (paymentChannel : List Char)
    (h_pieceCID : IdOk pieceCID) (h_nonce : inI64 nonce) (h_gatewayIDs : IdsOk gatewayIDs) (h_response : ∀ x ∈ response, Message.InRange x) :
    Delivers clientDHTDiscoverOfferResponse pr (pieceCID, nonce, gatewayIDs, response, paymentRequired, paymentChannel) := by
  obtain ⟨q_pieceCID, rfl, g_pieceCID⟩ := h_pieceCID
  refine delivers_of clientDHTDiscoverOfferResponse pr hpr _ (Ids.toStr q_pieceCID, nonce, Ids.mapToString gatewayIDs, response, paymentRequired, paymentChannel, ()) (by decide +kernel) (show inI32 115 from ⟨by decide, by decide⟩) rfl ⟨good_str _, good_i64 h_nonce, good_slice str _ (fun _ _ => good_str _), good_slice msg _ (fun _ hx => good_msg (h_response _ hx)), good_bool _, good_str _, trivial⟩ ?_
  simp [clientDHTDiscoverOfferResponse, Ids.fromHex_toStr g_pieceCID, ids_toString h_gatewayIDs]
example : Delivers clientDHTDiscoverOfferResponse Message.defaultProtocol ((some (exId 2)), (-7), [exId 3, exId 4], [Message.exMsg, Message.exMsg], false, "a\"b".toList) :=
  C30_clientDHTDiscoverOfferResponse _ defaultProtocolOk (some (exId 2)) (-7) [exId 3, exId 4] [Message.exMsg, Message.exMsg] false "a\"b".toList (exIdOk 2) (⟨by decide, by decide⟩) (exIdsOk) (exMsgsOk)

/-- `EncodeClientDHTDiscoverRequest` and its decoder. -/
theorem C30_clientDHTDiscoverRequest (pr : Protocol) (hpr : ProtocolOk pr) (pieceCID : Option Id) (nonce : Int) (ttl : Int) (numDHT : Int) (incrementalResults : Bool) (paychAddr : List Char) (voucher : List Char)
    (h_pieceCID : IdOk pieceCID) (h_nonce : inI64 nonce) (h_ttl : inI64 ttl) (h_numDHT : inI64 numDHT) :
    Delivers clientDHTDiscoverRequest pr (pieceCID, nonce, ttl, numDHT, incrementalResults, paychAddr, voucher) := by
  obtain ⟨q_pieceCID, rfl, g_pieceCID⟩ := h_pieceCID
  refine delivers_of clientDHTDiscoverRequest pr hpr _ (Ids.toStr q_pieceCID, nonce, ttl, numDHT, incrementalResults, paychAddr, voucher, ()) (by decide +kernel) (show inI32 104 from ⟨by decide, by decide⟩) rfl ⟨good_str _, good_i64 h_nonce, good_i64 h_ttl, good_i64 h_numDHT, good_bool _, good_str _, good_str _, trivial⟩ ?_
  simp [clientDHTDiscoverRequest, Ids.fromHex_toStr g_pieceCID]
example : Delivers clientDHTDiscoverRequest Message.defaultProtocol ((some (exId 2)), (-7), (-7), (-7), false, "a\"b".toList, "a\"b".toList) :=
  C30_clientDHTDiscoverRequest _ defaultProtocolOk (some (exId 2)) (-7) (-7) (-7) false "a\"b".toList "a\"b".toList (exIdOk 2) (⟨by decide, by decide⟩) (⟨by decide, by decide⟩) (⟨by decide, by decide⟩)

/-- `EncodeClientDHTDiscoverRequestV2` and its decoder. -/
theorem C30_clientDHTDiscoverRequestV2 (pr : Protocol) (hpr : ProtocolOk pr) (pieceCID : Option Id) (nonce : Int) (ttl : Int) (numDHT : Int) (incrementalResults : Bool) (paychAddr : List Char) (voucher : List Char)
    (h_pieceCID : IdOk pieceCID) (h_nonce : inI64 nonce) (h_ttl : inI64 ttl) (h_numDHT : inI64 numDHT) :
    Delivers clientDHTDiscoverRequestV2 pr (pieceCID, nonce, ttl, numDHT, incrementalResults, paychAddr, voucher) := by
  obtain ⟨q_pieceCID, rfl, g_pieceCID⟩ := h_pieceCID
  refine delivers_of clientDHTDiscoverRequestV2 pr hpr _ (Ids.toStr q_pieceCID, nonce, ttl, numDHT, incrementalResults, paychAddr, voucher, ()) (by decide +kernel) (show inI32 112 from ⟨by decide, by decide⟩) rfl ⟨good_str _, good_i64 h_nonce, good_i64 h_ttl, good_i64 h_numDHT, good_bool _, good_str _, good_str _, trivial⟩ ?_
  simp [clientDHTDiscoverRequestV2, Ids.fromHex_toStr g_pieceCID]
example : Delivers clientDHTDiscoverRequestV2 Message.defaultProtocol ((some (exId 2)), (-7), (-7), (-7), false, "a\"b".toList, "a\"b".toList) :=
  C30_clientDHTDiscoverRequestV2 _ defaultProtocolOk (some (exId 2)) (-7) (-7) (-7) false "a\"b".toList "a\"b".toList (exIdOk 2) (⟨by decide, by decide⟩) (⟨by decide, by decide⟩) (⟨by decide, by decide⟩)

/-- `EncodeClientDHTDiscoverResponse` and its decoder. -/
theorem C30_clientDHTDiscoverResponse (pr : Protocol) (hpr : ProtocolOk pr) (contacted : List Id) (response : List Msg) (unContactable : List Id) (nonce : Int) (paymentRequired : Bool) (paymentChannel : List Char)
    (h_contacted : IdsOk contacted) (h_response : ∀ x ∈ response, Message.InRange x) (h_unContactable : IdsOk unContactable) (h_nonce : inI64 nonce) :
    Delivers clientDHTDiscoverResponse pr (contacted, response, unContactable, nonce, paymentRequired, paymentChannel) := by
  refine delivers_of clientDHTDiscoverResponse pr hpr _ (Ids.mapToString contacted, response, Ids.mapToString unContactable, nonce, paymentRequired, paymentChannel, ()) (by decide +kernel) (show inI32 105 from ⟨by decide, by decide⟩) rfl ⟨good_slice str _ (fun _ _ => good_str _), good_slice msg _ (fun _ hx => good_msg (h_response _ hx)), good_slice str _ (fun _ _ => good_str _), good_i64 h_nonce, good_bool _, good_str _, trivial⟩ ?_
  simp [clientDHTDiscoverResponse, ids_toString h_contacted, ids_toString h_unContactable]
example : Delivers clientDHTDiscoverResponse Message.defaultProtocol ([exId 3, exId 4], [Message.exMsg, Message.exMsg], [exId 3, exId 4], (-7), false, "a\"b".toList) :=
  C30_clientDHTDiscoverResponse _ defaultProtocolOk [exId 3, exId 4] [Message.exMsg, Message.exMsg] [exId 3, exId 4] (-7) false "a\"b".toList (exIdsOk) (exMsgsOk) (exIdsOk) (⟨by decide, by decide⟩)

/-- `EncodeClientDHTDiscoverResponseV2` and its decoder. -/
theorem C30_clientDHTDiscoverResponseV2 (pr : Protocol) (hpr : ProtocolOk pr) (contacted : List Id) (response : List Msg) (unContactable : List Id) (nonce : Int) (paymentRequired : Bool) (paymentChannel : List Char)
    (h_contacted : IdsOk contacted) (h_response : ∀ x ∈ response, Message.InRange x) (h_unContactable : IdsOk unContactable) (h_nonce : inI64 nonce) :
    Delivers clientDHTDiscoverResponseV2 pr (contacted, response, unContactable, nonce, paymentRequired, paymentChannel) := by
  refine delivers_of clientDHTDiscoverResponseV2 pr hpr _ (Ids.mapToString contacted, response, Ids.mapToString unContactable, nonce, paymentRequired, paymentChannel, ()) (by decide +kernel) (show inI32 113 from ⟨by decide, by decide⟩) rfl ⟨good_slice str _ (fun _ _ => good_str _), good_slice msg _ (fun _ hx => good_msg (h_response _ hx)), good_slice str _ (fun _ _ => good_str _), good_i64 h_nonce, good_bool _, good_str _, trivial⟩ ?_
  simp [clientDHTDiscoverResponseV2, ids_toString h_contacted, ids_toString h_unContactable]
example : Delivers clientDHTDiscoverResponseV2 Message.defaultProtocol ([exId 3, exId 4], [Message.exMsg, Message.exMsg], [exId 3, exId 4], (-7), false, "a\"b".toList) :=
  C30_clientDHTDiscoverResponseV2 _ defaultProtocolOk [exId 3, exId 4] [Message.exMsg, Message.exMsg] [exId 3, exId 4] (-7) false "a\"b".toList (exIdsOk) (exMsgsOk) (exIdsOk) (⟨by decide, by decide⟩)

/-- `EncodeClientDHTOfferAckRequest` and its decoder. -/
theorem C30_clientDHTOfferAckRequest (pr : Protocol) (hpr : ProtocolOk pr) (pieceCID : Option Id) (gatewayID : Option Id)
    (h_pieceCID : IdOk pieceCID) (h_gatewayID : IdOk gatewayID) :
    Delivers clientDHTOfferAckRequest pr (pieceCID, gatewayID) := by
  obtain ⟨q_pieceCID, rfl, g_pieceCID⟩ := h_pieceCID
  obtain ⟨q_gatewayID, rfl, g_gatewayID⟩ := h_gatewayID
  refine delivers_of clientDHTOfferAckRequest pr hpr _ (Ids.toStr q_pieceCID, Ids.toStr q_gatewayID, ()) (by decide +kernel) (show inI32 106 from ⟨by decide, by decide⟩) rfl ⟨good_str _, good_str _, trivial⟩ ?_
  simp [clientDHTOfferAckRequest, Ids.fromHex_toStr g_pieceCID, Ids.fromHex_toStr g_gatewayID]
example : Delivers clientDHTOfferAckRequest Message.defaultProtocol ((some (exId 2)), (some (exId 1))) :=
  C30_clientDHTOfferAckRequest _ defaultProtocolOk (some (exId 2)) (some (exId 1)) (exIdOk 2) (exIdOk 1)

/-- `EncodeClientDHTOfferAckResponse` and its decoder. -/
theorem C30_clientDHTOfferAckResponse (pr : Protocol) (hpr : ProtocolOk pr) (pieceCID : Option Id) (gatewayID : Option Id) (found : Bool) (publishDHTOfferRequest : Option Msg) (publishDHTOfferResponse : Option Msg)
    (h_pieceCID : IdOk pieceCID) (h_gatewayID : IdOk gatewayID) (h_publishDHTOfferRequest : ∃ m, publishDHTOfferRequest = some m ∧ Message.InRange m) (h_publishDHTOfferResponse : ∃ m, publishDHTOfferResponse = some m ∧ Message.InRange m) :
    Delivers clientDHTOfferAckResponse pr (pieceCID, gatewayID, found, publishDHTOfferRequest, publishDHTOfferResponse) := by
  obtain ⟨q_pieceCID, rfl, g_pieceCID⟩ := h_pieceCID
  obtain ⟨q_gatewayID, rfl, g_gatewayID⟩ := h_gatewayID
  obtain ⟨q_publishDHTOfferRequest, rfl, g_publishDHTOfferRequest⟩ := h_publishDHTOfferRequest
  obtain ⟨q_publishDHTOfferResponse, rfl, g_publishDHTOfferResponse⟩ := h_publishDHTOfferResponse
  refine delivers_of clientDHTOfferAckResponse pr hpr _ (Ids.toStr q_pieceCID, Ids.toStr q_gatewayID, found, q_publishDHTOfferRequest, q_publishDHTOfferResponse, ()) (by decide +kernel) (show inI32 107 from ⟨by decide, by decide⟩) rfl ⟨good_str _, good_str _, good_bool _, good_msg g_publishDHTOfferRequest, good_msg g_publishDHTOfferResponse, trivial⟩ ?_
  simp [clientDHTOfferAckResponse, Ids.fromHex_toStr g_pieceCID, Ids.fromHex_toStr g_gatewayID]
example : Delivers clientDHTOfferAckResponse Message.defaultProtocol ((some (exId 2)), (some (exId 1)), false, (some Message.exMsg), (some Message.exMsg)) :=
  C30_clientDHTOfferAckResponse _ defaultProtocolOk (some (exId 2)) (some (exId 1)) false (some Message.exMsg) (some Message.exMsg) (exIdOk 2) (exIdOk 1) (⟨_, rfl, Message.exMsg_inRange⟩) (⟨_, rfl, Message.exMsg_inRange⟩)

/-- `EncodeClientEstablishmentRequest` and its decoder. -/
theorem C30_clientEstablishmentRequest (pr : Protocol) (hpr : ProtocolOk pr) (clientID : Option Id) (challenge : List Char) (ttl : Int)
    (h_clientID : IdOk clientID) (h_ttl : inI64 ttl) :
    Delivers clientEstablishmentRequest pr (clientID, challenge, ttl) := by
  obtain ⟨q_clientID, rfl, g_clientID⟩ := h_clientID
  refine delivers_of clientEstablishmentRequest pr hpr _ (Ids.toStr q_clientID, challenge, ttl, ()) (by decide +kernel) (show inI32 100 from ⟨by decide, by decide⟩) rfl ⟨good_str _, good_str _, good_i64 h_ttl, trivial⟩ ?_
  simp [clientEstablishmentRequest, Ids.fromHex_toStr g_clientID]
example : Delivers clientEstablishmentRequest Message.defaultProtocol ((some (exId 1)), "a\"b".toList, (-7)) :=
  C30_clientEstablishmentRequest _ defaultProtocolOk (some (exId 1)) "a\"b".toList (-7) (exIdOk 1) (⟨by decide, by decide⟩)

/-- `EncodeClientEstablishmentResponse` and its decoder. -/
theorem C30_clientEstablishmentResponse (pr : Protocol) (hpr : ProtocolOk pr) (gatewayID : Option Id) (challenge : List Char)
    (h_gatewayID : IdOk gatewayID) :
    Delivers clientEstablishmentResponse pr (gatewayID, challenge) := by
  obtain ⟨q_gatewayID, rfl, g_gatewayID⟩ := h_gatewayID
  refine delivers_of clientEstablishmentResponse pr hpr _ (Ids.toStr q_gatewayID, challenge, ()) (by decide +kernel) (show inI32 101 from ⟨by decide, by decide⟩) rfl ⟨good_str _, good_str _, trivial⟩ ?_
  simp [clientEstablishmentResponse, Ids.fromHex_toStr g_gatewayID]
example : Delivers clientEstablishmentResponse Message.defaultProtocol ((some (exId 1)), "a\"b".toList) :=
  C30_clientEstablishmentResponse _ defaultProtocolOk (some (exId 1)) "a\"b".toList (exIdOk 1)

/-- `EncodeClientStandardDiscoverOfferRequest` and its decoder. -/
theorem C30_clientStandardDiscoverOfferRequest (pr : Protocol) (hpr : ProtocolOk pr) (pieceCID : Option Id) (nonce : Int) (ttl : Int) (offerDigests : List (List Char)) (paychAddr : List Char) (voucher : List Char)
    (h_pieceCID : IdOk pieceCID) (h_nonce : inI64 nonce) (h_ttl : inI64 ttl) :
    Delivers clientStandardDiscoverOfferRequest pr (pieceCID, nonce, ttl, offerDigests, paychAddr, voucher) := by
  obtain ⟨q_pieceCID, rfl, g_pieceCID⟩ := h_pieceCID
  refine delivers_of clientStandardDiscoverOfferRequest pr hpr _ (Ids.toStr q_pieceCID, nonce, ttl, offerDigests, paychAddr, voucher, ()) (by decide +kernel) (show inI32 110 from ⟨by decide, by decide⟩) rfl ⟨good_str _, good_i64 h_nonce, good_i64 h_ttl, good_slice str _ (fun _ _ => good_str _), good_str _, good_str _, trivial⟩ ?_
  simp [clientStandardDiscoverOfferRequest, Ids.fromHex_toStr g_pieceCID]
example : Delivers clientStandardDiscoverOfferRequest Message.defaultProtocol ((some (exId 2)), (-7), (-7), ["ab".toList, []], "a\"b".toList, "a\"b".toList) :=
  C30_clientStandardDiscoverOfferRequest _ defaultProtocolOk (some (exId 2)) (-7) (-7) ["ab".toList, []] "a\"b".toList "a\"b".toList (exIdOk 2) (⟨by decide, by decide⟩) (⟨by decide, by decide⟩)

/-- `EncodeClientStandardDiscoverOfferResponse` and its decoder. -/
theorem C30_clientStandardDiscoverOfferResponse (pr : Protocol) (hpr : ProtocolOk pr) (pieceCID : Option Id) (nonce : Int) (found : Bool) (offers : List Offer.SubOffer) (fundedPaymentChannel : List Bool) (paymentRequired : Bool) (paymentChannel : List Char)
    (h_pieceCID : IdOk pieceCID) (h_nonce : inI64 nonce) (h_offers : ∀ x ∈ offers, Offer.SubInRange x) :
    Delivers clientStandardDiscoverOfferResponse pr (pieceCID, nonce, found, offers, fundedPaymentChannel, paymentRequired, paymentChannel) := by
  obtain ⟨q_pieceCID, rfl, g_pieceCID⟩ := h_pieceCID
  refine delivers_of clientStandardDiscoverOfferResponse pr hpr _ (Ids.toStr q_pieceCID, nonce, found, offers, fundedPaymentChannel, paymentRequired, paymentChannel, ()) (by decide +kernel) (show inI32 111 from ⟨by decide, by decide⟩) rfl ⟨good_str _, good_i64 h_nonce, good_bool _, good_slice subOffer _ (fun _ hx => good_subOffer (h_offers _ hx)), good_slice bool _ (fun _ _ => good_bool _), good_bool _, good_str _, trivial⟩ ?_
  simp [clientStandardDiscoverOfferResponse, Ids.fromHex_toStr g_pieceCID]
example : Delivers clientStandardDiscoverOfferResponse Message.defaultProtocol ((some (exId 2)), (-7), false, [exSub], [true, false], false, "a\"b".toList) :=
  C30_clientStandardDiscoverOfferResponse _ defaultProtocolOk (some (exId 2)) (-7) false [exSub] [true, false] false "a\"b".toList (exIdOk 2) (⟨by decide, by decide⟩) (exSubsOk)

/-- `EncodeClientStandardDiscoverRequest` and its decoder. -/
theorem C30_clientStandardDiscoverRequest (pr : Protocol) (hpr : ProtocolOk pr) (pieceCID : Option Id) (nonce : Int) (ttl : Int) (paychAddr : List Char) (voucher : List Char)
    (h_pieceCID : IdOk pieceCID) (h_nonce : inI64 nonce) (h_ttl : inI64 ttl) :
    Delivers clientStandardDiscoverRequest pr (pieceCID, nonce, ttl, paychAddr, voucher) := by
  obtain ⟨q_pieceCID, rfl, g_pieceCID⟩ := h_pieceCID
  refine delivers_of clientStandardDiscoverRequest pr hpr _ (Ids.toStr q_pieceCID, nonce, ttl, paychAddr, voucher, ()) (by decide +kernel) (show inI32 102 from ⟨by decide, by decide⟩) rfl ⟨good_str _, good_i64 h_nonce, good_i64 h_ttl, good_str _, good_str _, trivial⟩ ?_
  simp [clientStandardDiscoverRequest, Ids.fromHex_toStr g_pieceCID]
example : Delivers clientStandardDiscoverRequest Message.defaultProtocol ((some (exId 2)), (-7), (-7), "a\"b".toList, "a\"b".toList) :=
  C30_clientStandardDiscoverRequest _ defaultProtocolOk (some (exId 2)) (-7) (-7) "a\"b".toList "a\"b".toList (exIdOk 2) (⟨by decide, by decide⟩) (⟨by decide, by decide⟩)

/-- `EncodeClientStandardDiscoverRequestV2` and its decoder. -/
theorem C30_clientStandardDiscoverRequestV2 (pr : Protocol) (hpr : ProtocolOk pr) (pieceCID : Option Id) (nonce : Int) (ttl : Int) (paychAddr : List Char) (voucher : List Char)
    (h_pieceCID : IdOk pieceCID) (h_nonce : inI64 nonce) (h_ttl : inI64 ttl) :
    Delivers clientStandardDiscoverRequestV2 pr (pieceCID, nonce, ttl, paychAddr, voucher) := by
  obtain ⟨q_pieceCID, rfl, g_pieceCID⟩ := h_pieceCID
  refine delivers_of clientStandardDiscoverRequestV2 pr hpr _ (Ids.toStr q_pieceCID, nonce, ttl, paychAddr, voucher, ()) (by decide +kernel) (show inI32 108 from ⟨by decide, by decide⟩) rfl ⟨good_str _, good_i64 h_nonce, good_i64 h_ttl, good_str _, good_str _, trivial⟩ ?_
  simp [clientStandardDiscoverRequestV2, Ids.fromHex_toStr g_pieceCID]
example : Delivers clientStandardDiscoverRequestV2 Message.defaultProtocol ((some (exId 2)), (-7), (-7), "a\"b".toList, "a\"b".toList) :=
  C30_clientStandardDiscoverRequestV2 _ defaultProtocolOk (some (exId 2)) (-7) (-7) "a\"b".toList "a\"b".toList (exIdOk 2) (⟨by decide, by decide⟩) (⟨by decide, by decide⟩)

/-- `EncodeClientStandardDiscoverResponse` and its decoder. -/
theorem C30_clientStandardDiscoverResponse (pr : Protocol) (hpr : ProtocolOk pr) (pieceCID : Option Id) (nonce : Int) (found : Bool) (offers : List Offer.SubOffer) (fundedPaymentChannel : List Bool)
    (h_pieceCID : IdOk pieceCID) (h_nonce : inI64 nonce) (h_offers : ∀ x ∈ offers, Offer.SubInRange x) :
    Delivers clientStandardDiscoverResponse pr (pieceCID, nonce, found, offers, fundedPaymentChannel) := by
  obtain ⟨q_pieceCID, rfl, g_pieceCID⟩ := h_pieceCID
  refine delivers_of clientStandardDiscoverResponse pr hpr _ (Ids.toStr q_pieceCID, nonce, found, offers, fundedPaymentChannel, ()) (by decide +kernel) (show inI32 103 from ⟨by decide, by decide⟩) rfl ⟨good_str _, good_i64 h_nonce, good_bool _, good_slice subOffer _ (fun _ hx => good_subOffer (h_offers _ hx)), good_slice bool _ (fun _ _ => good_bool _), trivial⟩ ?_
  simp [clientStandardDiscoverResponse, Ids.fromHex_toStr g_pieceCID]
example : Delivers clientStandardDiscoverResponse Message.defaultProtocol ((some (exId 2)), (-7), false, [exSub], [true, false]) :=
  C30_clientStandardDiscoverResponse _ defaultProtocolOk (some (exId 2)) (-7) false [exSub] [true, false] (exIdOk 2) (⟨by decide, by decide⟩) (exSubsOk)

/-- `EncodeClientStandardDiscoverResponseV2` and its decoder. -/
theorem C30_clientStandardDiscoverResponseV2 (pr : Protocol) (hpr : ProtocolOk pr) (pieceCID : Option Id) (nonce : Int) (found : Bool) (offersDigests : List (List Char)) (fundedPaymentChannel : List Bool) (paymentRequired : Bool) (paymentChannel : List Char)
    (h_pieceCID : IdOk pieceCID) (h_nonce : inI64 nonce) :
    Delivers clientStandardDiscoverResponseV2 pr (pieceCID, nonce, found, offersDigests, fundedPaymentChannel, paymentRequired, paymentChannel) := by
  obtain ⟨q_pieceCID, rfl, g_pieceCID⟩ := h_pieceCID
  refine delivers_of clientStandardDiscoverResponseV2 pr hpr _ (Ids.toStr q_pieceCID, nonce, found, offersDigests, fundedPaymentChannel, paymentRequired, paymentChannel, ()) (by decide +kernel) (show inI32 109 from ⟨by decide, by decide⟩) rfl ⟨good_str _, good_i64 h_nonce, good_bool _, good_slice str _ (fun _ _ => good_str _), good_slice bool _ (fun _ _ => good_bool _), good_bool _, good_str _, trivial⟩ ?_
  simp [clientStandardDiscoverResponseV2, Ids.fromHex_toStr g_pieceCID]
example : Delivers clientStandardDiscoverResponseV2 Message.defaultProtocol ((some (exId 2)), (-7), false, ["ab".toList, []], [true, false], false, "a\"b".toList) :=
  C30_clientStandardDiscoverResponseV2 _ defaultProtocolOk (some (exId 2)) (-7) false ["ab".toList, []] [true, false] false "a\"b".toList (exIdOk 2) (⟨by decide, by decide⟩)

/-- `EncodeGatewayDHTDiscoverOfferRequest` and its decoder. -/
theorem C30_gatewayDHTDiscoverOfferRequest (pr : Protocol) (hpr : ProtocolOk pr) (pieceCID : Option Id) (nonce : Int) (offerDigests : List (List Char)) (paychAddr : List Char) (voucher : List Char)
    (h_pieceCID : IdOk pieceCID) (h_nonce : inI64 nonce) :
    Delivers gatewayDHTDiscoverOfferRequest pr (pieceCID, nonce, offerDigests, paychAddr, voucher) := by
  obtain ⟨q_pieceCID, rfl, g_pieceCID⟩ := h_pieceCID
  refine delivers_of gatewayDHTDiscoverOfferRequest pr hpr _ (Ids.toStr q_pieceCID, nonce, offerDigests, paychAddr, voucher, ()) (by decide +kernel) (show inI32 209 from ⟨by decide, by decide⟩) rfl ⟨good_str _, good_i64 h_nonce, good_slice str _ (fun _ _ => good_str _), good_str _, good_str _, trivial⟩ ?_
  simp [gatewayDHTDiscoverOfferRequest, Ids.fromHex_toStr g_pieceCID]
example : Delivers gatewayDHTDiscoverOfferRequest Message.defaultProtocol ((some (exId 2)), (-7), ["ab".toList, []], "a\"b".toList, "a\"b".toList) :=
  C30_gatewayDHTDiscoverOfferRequest _ defaultProtocolOk (some (exId 2)) (-7) ["ab".toList, []] "a\"b".toList "a\"b".toList (exIdOk 2) (⟨by decide, by decide⟩)

/-- `EncodeGatewayDHTDiscoverOfferResponse` and its decoder. -/
theorem C30_gatewayDHTDiscoverOfferResponse (pr : Protocol) (hpr : ProtocolOk pr) (pieceCID : Option Id) (nonce : Int) (found : Bool) (offers : List Offer.SubOffer) (fundedPaymentChannel : List Bool) (paymentRequired : Bool) (paymentChannel : List Char)
    (h_pieceCID : IdOk pieceCID) (h_nonce : inI64 nonce) (h_offers : ∀ x ∈ offers, Offer.SubInRange x) :
    Delivers gatewayDHTDiscoverOfferResponse pr (pieceCID, nonce, found, offers, fundedPaymentChannel, paymentRequired, paymentChannel) := by
  obtain ⟨q_pieceCID, rfl, g_pieceCID⟩ := h_pieceCID
  refine delivers_of gatewayDHTDiscoverOfferResponse pr hpr _ (Ids.toStr q_pieceCID, nonce, found, offers, fundedPaymentChannel, paymentRequired, paymentChannel, ()) (by decide +kernel) (show inI32 210 from ⟨by decide, by decide⟩) rfl ⟨good_str _, good_i64 h_nonce, good_bool _, good_slice subOffer _ (fun _ hx => good_subOffer (h_offers _ hx)), good_slice bool _ (fun _ _ => good_bool _), good_bool _, good_str _, trivial⟩ ?_
  simp [gatewayDHTDiscoverOfferResponse, Ids.fromHex_toStr g_pieceCID]
example : Delivers gatewayDHTDiscoverOfferResponse Message.defaultProtocol ((some (exId 2)), (-7), false, [exSub], [true, false], false, "a\"b".toList) :=
  C30_gatewayDHTDiscoverOfferResponse _ defaultProtocolOk (some (exId 2)) (-7) false [exSub] [true, false] false "a\"b".toList (exIdOk 2) (⟨by decide, by decide⟩) (exSubsOk)

/-- `EncodeGatewayDHTDiscoverRequest` and its decoder. -/
theorem C30_gatewayDHTDiscoverRequest (pr : Protocol) (hpr : ProtocolOk pr) (gatewayID : Option Id) (pieceCID : Option Id) (nonce : Int) (ttl : Int) (paychAddr : List Char) (voucher : List Char)
    (h_gatewayID : IdOk gatewayID) (h_pieceCID : IdOk pieceCID) (h_nonce : inI64 nonce) (h_ttl : inI64 ttl) :
    Delivers gatewayDHTDiscoverRequest pr (gatewayID, pieceCID, nonce, ttl, paychAddr, voucher) := by
  obtain ⟨q_gatewayID, rfl, g_gatewayID⟩ := h_gatewayID
  obtain ⟨q_pieceCID, rfl, g_pieceCID⟩ := h_pieceCID
  refine delivers_of gatewayDHTDiscoverRequest pr hpr _ (Ids.toStr q_gatewayID, Ids.toStr q_pieceCID, nonce, ttl, paychAddr, voucher, ()) (by decide +kernel) (show inI32 203 from ⟨by decide, by decide⟩) rfl ⟨good_str _, good_str _, good_i64 h_nonce, good_i64 h_ttl, good_str _, good_str _, trivial⟩ ?_
  simp [gatewayDHTDiscoverRequest, Ids.fromHex_toStr g_gatewayID, Ids.fromHex_toStr g_pieceCID]
example : Delivers gatewayDHTDiscoverRequest Message.defaultProtocol ((some (exId 1)), (some (exId 2)), (-7), (-7), "a\"b".toList, "a\"b".toList) :=
  C30_gatewayDHTDiscoverRequest _ defaultProtocolOk (some (exId 1)) (some (exId 2)) (-7) (-7) "a\"b".toList "a\"b".toList (exIdOk 1) (exIdOk 2) (⟨by decide, by decide⟩) (⟨by decide, by decide⟩)

/-- `EncodeGatewayDHTDiscoverRequestV2` and its decoder. -/
theorem C30_gatewayDHTDiscoverRequestV2 (pr : Protocol) (hpr : ProtocolOk pr) (gatewayID : Option Id) (pieceCID : Option Id) (nonce : Int) (ttl : Int) (paychAddr : List Char) (voucher : List Char)
    (h_gatewayID : IdOk gatewayID) (h_pieceCID : IdOk pieceCID) (h_nonce : inI64 nonce) (h_ttl : inI64 ttl) :
    Delivers gatewayDHTDiscoverRequestV2 pr (gatewayID, pieceCID, nonce, ttl, paychAddr, voucher) := by
  obtain ⟨q_gatewayID, rfl, g_gatewayID⟩ := h_gatewayID
  obtain ⟨q_pieceCID, rfl, g_pieceCID⟩ := h_pieceCID
  refine delivers_of gatewayDHTDiscoverRequestV2 pr hpr _ (Ids.toStr q_gatewayID, Ids.toStr q_pieceCID, nonce, ttl, paychAddr, voucher, ()) (by decide +kernel) (show inI32 207 from ⟨by decide, by decide⟩) rfl ⟨good_str _, good_str _, good_i64 h_nonce, good_i64 h_ttl, good_str _, good_str _, trivial⟩ ?_
  simp [gatewayDHTDiscoverRequestV2, Ids.fromHex_toStr g_gatewayID, Ids.fromHex_toStr g_pieceCID]
example : Delivers gatewayDHTDiscoverRequestV2 Message.defaultProtocol ((some (exId 1)), (some (exId 2)), (-7), (-7), "a\"b".toList, "a\"b".toList) :=
  C30_gatewayDHTDiscoverRequestV2 _ defaultProtocolOk (some (exId 1)) (some (exId 2)) (-7) (-7) "a\"b".toList "a\"b".toList (exIdOk 1) (exIdOk 2) (⟨by decide, by decide⟩) (⟨by decide, by decide⟩)

/-- `EncodeGatewayDHTDiscoverResponse` and its decoder. -/
theorem C30_gatewayDHTDiscoverResponse (pr : Protocol) (hpr : ProtocolOk pr) (pieceCID : Option Id) (nonce : Int) (found : Bool) (offers : List Offer.SubOffer) (fundedPaymentChannel : List Bool)
    (h_pieceCID : IdOk pieceCID) (h_nonce : inI64 nonce) (h_offers : ∀ x ∈ offers, Offer.SubInRange x) :
    Delivers gatewayDHTDiscoverResponse pr (pieceCID, nonce, found, offers, fundedPaymentChannel) := by
  obtain ⟨q_pieceCID, rfl, g_pieceCID⟩ := h_pieceCID
  refine delivers_of gatewayDHTDiscoverResponse pr hpr _ (Ids.toStr q_pieceCID, nonce, found, offers, fundedPaymentChannel, ()) (by decide +kernel) (show inI32 204 from ⟨by decide, by decide⟩) rfl ⟨good_str _, good_i64 h_nonce, good_bool _, good_slice subOffer _ (fun _ hx => good_subOffer (h_offers _ hx)), good_slice bool _ (fun _ _ => good_bool _), trivial⟩ ?_
  simp [gatewayDHTDiscoverResponse, Ids.fromHex_toStr g_pieceCID]
example : Delivers gatewayDHTDiscoverResponse Message.defaultProtocol ((some (exId 2)), (-7), false, [exSub], [true, false]) :=
  C30_gatewayDHTDiscoverResponse _ defaultProtocolOk (some (exId 2)) (-7) false [exSub] [true, false] (exIdOk 2) (⟨by decide, by decide⟩) (exSubsOk)

/-- `EncodeGatewayDHTDiscoverResponseV2` and its decoder. -/
theorem C30_gatewayDHTDiscoverResponseV2 (pr : Protocol) (hpr : ProtocolOk pr) (pieceCID : Option Id) (nonce : Int) (found : Bool) (offers : List (List Char)) (fundedPaymentChannel : List Bool) (paymentRequired : Bool) (paymentChannel : List Char)
    (h_pieceCID : IdOk pieceCID) (h_nonce : inI64 nonce) :
    Delivers gatewayDHTDiscoverResponseV2 pr (pieceCID, nonce, found, offers, fundedPaymentChannel, paymentRequired, paymentChannel) := by
  obtain ⟨q_pieceCID, rfl, g_pieceCID⟩ := h_pieceCID
  refine delivers_of gatewayDHTDiscoverResponseV2 pr hpr _ (Ids.toStr q_pieceCID, nonce, found, offers, fundedPaymentChannel, paymentRequired, paymentChannel, ()) (by decide +kernel) (show inI32 208 from ⟨by decide, by decide⟩) rfl ⟨good_str _, good_i64 h_nonce, good_bool _, good_slice str _ (fun _ _ => good_str _), good_slice bool _ (fun _ _ => good_bool _), good_bool _, good_str _, trivial⟩ ?_
  simp [gatewayDHTDiscoverResponseV2, Ids.fromHex_toStr g_pieceCID]
example : Delivers gatewayDHTDiscoverResponseV2 Message.defaultProtocol ((some (exId 2)), (-7), false, ["ab".toList, []], [true, false], false, "a\"b".toList) :=
  C30_gatewayDHTDiscoverResponseV2 _ defaultProtocolOk (some (exId 2)) (-7) false ["ab".toList, []] [true, false] false "a\"b".toList (exIdOk 2) (⟨by decide, by decide⟩)

/-- `EncodeGatewayListDHTOfferAck` and its decoder. -/
theorem C30_gatewayListDHTOfferAck (pr : Protocol) (hpr : ProtocolOk pr) (publishedDHTOffersAck : List Msg)
    (h_publishedDHTOffersAck : ∀ x ∈ publishedDHTOffersAck, Message.InRange x) :
    Delivers gatewayListDHTOfferAck pr publishedDHTOffersAck := by
  refine delivers_of gatewayListDHTOfferAck pr hpr _ (publishedDHTOffersAck, ()) (by decide +kernel) (show inI32 202 from ⟨by decide, by decide⟩) rfl ⟨good_slice msg _ (fun _ hx => good_msg (h_publishedDHTOffersAck _ hx)), trivial⟩ ?_
  rfl
example : Delivers gatewayListDHTOfferAck Message.defaultProtocol [Message.exMsg, Message.exMsg] :=
  C30_gatewayListDHTOfferAck _ defaultProtocolOk [Message.exMsg, Message.exMsg] (exMsgsOk)

/-- `EncodeGatewayListDHTOfferRequest` and its decoder. -/
theorem C30_gatewayListDHTOfferRequest (pr : Protocol) (hpr : ProtocolOk pr) (gatewayID : Option Id) (cidMin : Option Id) (cidMax : Option Id) (blockHash : List Char) (transactionReceipt : List Char) (merkleRoot : List Char) (merkleProof : Option Merkle.Proof)
    (h_gatewayID : IdOk gatewayID) (h_cidMin : IdOk cidMin) (h_cidMax : IdOk cidMax) (h_merkleProof : ∃ p, merkleProof = some p ∧ ProofOk p) :
    Delivers gatewayListDHTOfferRequest pr (gatewayID, cidMin, cidMax, blockHash, transactionReceipt, merkleRoot, merkleProof) := by
  obtain ⟨q_gatewayID, rfl, g_gatewayID⟩ := h_gatewayID
  obtain ⟨q_cidMin, rfl, g_cidMin⟩ := h_cidMin
  obtain ⟨q_cidMax, rfl, g_cidMax⟩ := h_cidMax
  obtain ⟨q_merkleProof, rfl, g_merkleProof⟩ := h_merkleProof
  refine delivers_of gatewayListDHTOfferRequest pr hpr _ (Ids.toStr q_gatewayID, Ids.toStr q_cidMin, Ids.toStr q_cidMax, blockHash, transactionReceipt, merkleRoot, q_merkleProof, ()) (by decide +kernel) (show inI32 200 from ⟨by decide, by decide⟩) rfl ⟨good_str _, good_str _, good_str _, good_str _, good_str _, good_str _, good_proof g_merkleProof, trivial⟩ ?_
  simp [gatewayListDHTOfferRequest, Ids.fromHex_toStr g_gatewayID, Ids.fromHex_toStr g_cidMin, Ids.fromHex_toStr g_cidMax]
example : Delivers gatewayListDHTOfferRequest Message.defaultProtocol ((some (exId 1)), (some (exId 2)), (some (exId 2)), "a\"b".toList, "a\"b".toList, "a\"b".toList, (some exProof)) :=
  C30_gatewayListDHTOfferRequest _ defaultProtocolOk (some (exId 1)) (some (exId 2)) (some (exId 2)) "a\"b".toList "a\"b".toList "a\"b".toList (some exProof) (exIdOk 1) (exIdOk 2) (exIdOk 2) (⟨_, rfl, exProofOk⟩)

/-- `EncodeGatewayListDHTOfferResponse` and its decoder. -/
theorem C30_gatewayListDHTOfferResponse (pr : Protocol) (hpr : ProtocolOk pr) (publishedDHTOffers : List Msg)
    (h_publishedDHTOffers : ∀ x ∈ publishedDHTOffers, Message.InRange x) :
    Delivers gatewayListDHTOfferResponse pr publishedDHTOffers := by
  refine delivers_of gatewayListDHTOfferResponse pr hpr _ (publishedDHTOffers, ()) (by decide +kernel) (show inI32 201 from ⟨by decide, by decide⟩) rfl ⟨good_slice msg _ (fun _ hx => good_msg (h_publishedDHTOffers _ hx)), trivial⟩ ?_
  rfl
example : Delivers gatewayListDHTOfferResponse Message.defaultProtocol [Message.exMsg, Message.exMsg] :=
  C30_gatewayListDHTOfferResponse _ defaultProtocolOk [Message.exMsg, Message.exMsg] (exMsgsOk)

/-- `EncodeGatewayNotifyProviderGroupCIDOfferSupportRequest` and its decoder. -/
theorem C30_gatewayNotifyProviderGroupCIDOfferSupportRequest (pr : Protocol) (hpr : ProtocolOk pr) (gatewayID : Option Id) (groupCIDOfferSupported : Bool)
    (h_gatewayID : IdOk gatewayID) :
    Delivers gatewayNotifyProviderGroupCIDOfferSupportRequest pr (gatewayID, groupCIDOfferSupported) := by
  obtain ⟨q_gatewayID, rfl, g_gatewayID⟩ := h_gatewayID
  refine delivers_of gatewayNotifyProviderGroupCIDOfferSupportRequest pr hpr _ (Ids.toStr q_gatewayID, groupCIDOfferSupported, ()) (by decide +kernel) (show inI32 205 from ⟨by decide, by decide⟩) rfl ⟨good_str _, good_bool _, trivial⟩ ?_
  simp [gatewayNotifyProviderGroupCIDOfferSupportRequest, Ids.fromHex_toStr g_gatewayID]
example : Delivers gatewayNotifyProviderGroupCIDOfferSupportRequest Message.defaultProtocol ((some (exId 1)), false) :=
  C30_gatewayNotifyProviderGroupCIDOfferSupportRequest _ defaultProtocolOk (some (exId 1)) false (exIdOk 1)

/-- `EncodeGatewayNotifyProviderGroupCIDOfferSupportResponse` and its decoder, for the value true only (see `C30_refuted`). -/
theorem C30_gatewayNotifyProviderGroupCIDOfferSupportResponse_partial (pr : Protocol) (hpr : ProtocolOk pr)  :
    Delivers gatewayNotifyProviderGroupCIDOfferSupportResponse pr true := by
  refine delivers_of gatewayNotifyProviderGroupCIDOfferSupportResponse pr hpr _ (true, ()) (by decide +kernel) (show inI32 206 from ⟨by decide, by decide⟩) rfl ⟨good_bool _, trivial⟩ ?_
  rfl
example : Delivers gatewayNotifyProviderGroupCIDOfferSupportResponse Message.defaultProtocol true :=
  C30_gatewayNotifyProviderGroupCIDOfferSupportResponse_partial _ defaultProtocolOk

/-- `EncodeGatewayPingRequest` and its decoder. -/
theorem C30_gatewayPingRequest (pr : Protocol) (hpr : ProtocolOk pr) (gatewayID : Option Id) (nonce : Int) (ttl : Int)
    (h_gatewayID : IdOk gatewayID) (h_nonce : inI64 nonce) (h_ttl : inI64 ttl) :
    Delivers gatewayPingRequest pr (gatewayID, nonce, ttl) := by
  obtain ⟨q_gatewayID, rfl, g_gatewayID⟩ := h_gatewayID
  refine delivers_of gatewayPingRequest pr hpr _ (Ids.toStr q_gatewayID, nonce, ttl, ()) (by decide +kernel) (show inI32 205 from ⟨by decide, by decide⟩) rfl ⟨good_str _, good_i64 h_nonce, good_i64 h_ttl, trivial⟩ ?_
  simp [gatewayPingRequest, Ids.fromHex_toStr g_gatewayID]
example : Delivers gatewayPingRequest Message.defaultProtocol ((some (exId 1)), (-7), (-7)) :=
  C30_gatewayPingRequest _ defaultProtocolOk (some (exId 1)) (-7) (-7) (exIdOk 1) (⟨by decide, by decide⟩) (⟨by decide, by decide⟩)

/-- `EncodeGatewayPingResponse` and its decoder, for the value true only (see `C30_refuted`). -/
theorem C30_gatewayPingResponse_partial (pr : Protocol) (hpr : ProtocolOk pr) (nonce : Int)
    (h_nonce : inI64 nonce) :
    Delivers gatewayPingResponse pr (nonce, true) := by
  refine delivers_of gatewayPingResponse pr hpr _ (nonce, true, ()) (by decide +kernel) (show inI32 206 from ⟨by decide, by decide⟩) rfl ⟨good_i64 h_nonce, good_bool _, trivial⟩ ?_
  rfl
example : Delivers gatewayPingResponse Message.defaultProtocol ((-7), true) :=
  C30_gatewayPingResponse_partial _ defaultProtocolOk (-7) (⟨by decide, by decide⟩)

/-- `EncodeGatewayAdminForceRefreshRequest` and its decoder. -/
theorem C30_gatewayAdminForceRefreshRequest (pr : Protocol) (hpr : ProtocolOk pr) (refresh : Bool) :
    Delivers gatewayAdminForceRefreshRequest pr refresh := by
  refine delivers_of gatewayAdminForceRefreshRequest pr hpr _ (refresh, ()) (by decide +kernel) (show inI32 406 from ⟨by decide, by decide⟩) rfl ⟨good_bool _, trivial⟩ ?_
  rfl
example : Delivers gatewayAdminForceRefreshRequest Message.defaultProtocol false :=
  C30_gatewayAdminForceRefreshRequest _ defaultProtocolOk false

/-- `EncodeGatewayAdminForceRefreshResponse` and its decoder. -/
theorem C30_gatewayAdminForceRefreshResponse (pr : Protocol) (hpr : ProtocolOk pr) (refreshed : Bool) :
    Delivers gatewayAdminForceRefreshResponse pr refreshed := by
  refine delivers_of gatewayAdminForceRefreshResponse pr hpr _ (refreshed, ()) (by decide +kernel) (show inI32 407 from ⟨by decide, by decide⟩) rfl ⟨good_bool _, trivial⟩ ?_
  rfl
example : Delivers gatewayAdminForceRefreshResponse Message.defaultProtocol false :=
  C30_gatewayAdminForceRefreshResponse _ defaultProtocolOk false

/-- `EncodeGatewayAdminGetReputationRequest` and its decoder. -/
theorem C30_gatewayAdminGetReputationRequest (pr : Protocol) (hpr : ProtocolOk pr) (clientID : Option Id)
    (h_clientID : IdOk clientID) :
    Delivers gatewayAdminGetReputationRequest pr clientID := by
  obtain ⟨q_clientID, rfl, g_clientID⟩ := h_clientID
  refine delivers_of gatewayAdminGetReputationRequest pr hpr _ (Ids.toStr q_clientID, ()) (by decide +kernel) (show inI32 402 from ⟨by decide, by decide⟩) rfl ⟨good_str _, trivial⟩ ?_
  simp [gatewayAdminGetReputationRequest, Ids.fromHex_toStr g_clientID]
example : Delivers gatewayAdminGetReputationRequest Message.defaultProtocol (some (exId 1)) :=
  C30_gatewayAdminGetReputationRequest _ defaultProtocolOk (some (exId 1)) (exIdOk 1)

/-- `EncodeGatewayAdminGetReputationResponse` and its decoder. -/
theorem C30_gatewayAdminGetReputationResponse (pr : Protocol) (hpr : ProtocolOk pr) (clientID : Option Id) (reputation : Int) (found : Bool)
    (h_clientID : IdOk clientID) (h_reputation : inI64 reputation) :
    Delivers gatewayAdminGetReputationResponse pr (clientID, reputation, found) := by
  obtain ⟨q_clientID, rfl, g_clientID⟩ := h_clientID
  refine delivers_of gatewayAdminGetReputationResponse pr hpr _ (Ids.toStr q_clientID, reputation, found, ()) (by decide +kernel) (show inI32 403 from ⟨by decide, by decide⟩) rfl ⟨good_str _, good_i64 h_reputation, good_bool _, trivial⟩ ?_
  simp [gatewayAdminGetReputationResponse, Ids.fromHex_toStr g_clientID]
example : Delivers gatewayAdminGetReputationResponse Message.defaultProtocol ((some (exId 1)), (-7), false) :=
  C30_gatewayAdminGetReputationResponse _ defaultProtocolOk (some (exId 1)) (-7) false (exIdOk 1) (⟨by decide, by decide⟩)

/-- `EncodeGatewayAdminInitialiseKeyRequest` and its decoder. -/
theorem C30_gatewayAdminInitialiseKeyRequest (pr : Protocol) (hpr : ProtocolOk pr) (nodeID : Option Id) (privateKey : Option Crypto.KeyPair) (keyVersion : Option Crypto.KeyVersion)
    (h_nodeID : IdOk nodeID) (h_privateKey : ∃ k, privateKey = some k ∧ Crypto.PrivateKey k) (h_keyVersion : ∃ v, keyVersion = some v) :
    Delivers gatewayAdminInitialiseKeyRequest pr (nodeID, privateKey, keyVersion) := by
  obtain ⟨q_nodeID, rfl, g_nodeID⟩ := h_nodeID
  obtain ⟨q_privateKey, rfl, g_privateKey⟩ := h_privateKey
  obtain ⟨q_keyVersion, rfl⟩ := h_keyVersion
  refine delivers_of gatewayAdminInitialiseKeyRequest pr hpr _ (Ids.toStr q_nodeID, Crypto.encodePrivateKey q_privateKey, q_keyVersion, ()) (by decide +kernel) (show inI32 400 from ⟨by decide, by decide⟩) rfl ⟨good_str _, good_str _, good_u32 _, trivial⟩ ?_
  simp [gatewayAdminInitialiseKeyRequest, Ids.fromHex_toStr g_nodeID, (Crypto.C33_private_key_round_trip q_privateKey g_privateKey).1, Crypto.decodeKeyVersion]
example : Delivers gatewayAdminInitialiseKeyRequest Message.defaultProtocol ((some (exId 1)), (some Offer.exKey), (some 3)) :=
  C30_gatewayAdminInitialiseKeyRequest _ defaultProtocolOk (some (exId 1)) (some Offer.exKey) (some 3) (exIdOk 1) (⟨_, rfl, Offer.exKey_private⟩) (⟨_, rfl⟩)

/-- `EncodeGatewayAdminInitialiseKeyRequestV2` and its decoder. -/
theorem C30_gatewayAdminInitialiseKeyRequestV2 (pr : Protocol) (hpr : ProtocolOk pr) (nodeID : Option Id) (privateKey : Option Crypto.KeyPair) (keyVersion : Option Crypto.KeyVersion) (walletPrivateKey : List Char) (lotusAP : List Char) (lotusAuthToken : List Char)
    (h_nodeID : IdOk nodeID) (h_privateKey : ∃ k, privateKey = some k ∧ Crypto.PrivateKey k) (h_keyVersion : ∃ v, keyVersion = some v) :
    Delivers gatewayAdminInitialiseKeyRequestV2 pr (nodeID, privateKey, keyVersion, walletPrivateKey, lotusAP, lotusAuthToken) := by
  obtain ⟨q_nodeID, rfl, g_nodeID⟩ := h_nodeID
  obtain ⟨q_privateKey, rfl, g_privateKey⟩ := h_privateKey
  obtain ⟨q_keyVersion, rfl⟩ := h_keyVersion
  refine delivers_of gatewayAdminInitialiseKeyRequestV2 pr hpr _ (Ids.toStr q_nodeID, Crypto.encodePrivateKey q_privateKey, q_keyVersion, walletPrivateKey, lotusAP, lotusAuthToken, ()) (by decide +kernel) (show inI32 412 from ⟨by decide, by decide⟩) rfl ⟨good_str _, good_str _, good_u32 _, good_str _, good_str _, good_str _, trivial⟩ ?_
  simp [gatewayAdminInitialiseKeyRequestV2, Ids.fromHex_toStr g_nodeID, (Crypto.C33_private_key_round_trip q_privateKey g_privateKey).1, Crypto.decodeKeyVersion]
example : Delivers gatewayAdminInitialiseKeyRequestV2 Message.defaultProtocol ((some (exId 1)), (some Offer.exKey), (some 3), "a\"b".toList, "a\"b".toList, "a\"b".toList) :=
  C30_gatewayAdminInitialiseKeyRequestV2 _ defaultProtocolOk (some (exId 1)) (some Offer.exKey) (some 3) "a\"b".toList "a\"b".toList "a\"b".toList (exIdOk 1) (⟨_, rfl, Offer.exKey_private⟩) (⟨_, rfl⟩)

/-- `EncodeGatewayAdminInitialiseKeyResponse` and its decoder. -/
theorem C30_gatewayAdminInitialiseKeyResponse (pr : Protocol) (hpr : ProtocolOk pr) (success : Bool) :
    Delivers gatewayAdminInitialiseKeyResponse pr success := by
  refine delivers_of gatewayAdminInitialiseKeyResponse pr hpr _ (success, ()) (by decide +kernel) (show inI32 401 from ⟨by decide, by decide⟩) rfl ⟨good_bool _, trivial⟩ ?_
  rfl
example : Delivers gatewayAdminInitialiseKeyResponse Message.defaultProtocol false :=
  C30_gatewayAdminInitialiseKeyResponse _ defaultProtocolOk false

/-- `EncodeGatewayAdminListDHTOfferRequest` and its decoder. -/
theorem C30_gatewayAdminListDHTOfferRequest (pr : Protocol) (hpr : ProtocolOk pr) (refresh : Bool) :
    Delivers gatewayAdminListDHTOfferRequest pr refresh := by
  refine delivers_of gatewayAdminListDHTOfferRequest pr hpr _ (refresh, ()) (by decide +kernel) (show inI32 410 from ⟨by decide, by decide⟩) rfl ⟨good_bool _, trivial⟩ ?_
  rfl
example : Delivers gatewayAdminListDHTOfferRequest Message.defaultProtocol false :=
  C30_gatewayAdminListDHTOfferRequest _ defaultProtocolOk false

/-- `EncodeGatewayAdminListDHTOfferResponse` and its decoder. -/
theorem C30_gatewayAdminListDHTOfferResponse (pr : Protocol) (hpr : ProtocolOk pr) (refreshed : Bool) :
    Delivers gatewayAdminListDHTOfferResponse pr refreshed := by
  refine delivers_of gatewayAdminListDHTOfferResponse pr hpr _ (refreshed, ()) (by decide +kernel) (show inI32 411 from ⟨by decide, by decide⟩) rfl ⟨good_bool _, trivial⟩ ?_
  rfl
example : Delivers gatewayAdminListDHTOfferResponse Message.defaultProtocol false :=
  C30_gatewayAdminListDHTOfferResponse _ defaultProtocolOk false

/-- `EncodeGatewayAdminSetReputationRequest` and its decoder. -/
theorem C30_gatewayAdminSetReputationRequest (pr : Protocol) (hpr : ProtocolOk pr) (clientID : Option Id) (reputation : Int)
    (h_clientID : IdOk clientID) (h_reputation : inI64 reputation) :
    Delivers gatewayAdminSetReputationRequest pr (clientID, reputation) := by
  obtain ⟨q_clientID, rfl, g_clientID⟩ := h_clientID
  refine delivers_of gatewayAdminSetReputationRequest pr hpr _ (Ids.toStr q_clientID, reputation, ()) (by decide +kernel) (show inI32 404 from ⟨by decide, by decide⟩) rfl ⟨good_str _, good_i64 h_reputation, trivial⟩ ?_
  simp [gatewayAdminSetReputationRequest, Ids.fromHex_toStr g_clientID]
example : Delivers gatewayAdminSetReputationRequest Message.defaultProtocol ((some (exId 1)), (-7)) :=
  C30_gatewayAdminSetReputationRequest _ defaultProtocolOk (some (exId 1)) (-7) (exIdOk 1) (⟨by decide, by decide⟩)

/-- `EncodeGatewayAdminSetReputationResponse` and its decoder. -/
theorem C30_gatewayAdminSetReputationResponse (pr : Protocol) (hpr : ProtocolOk pr) (clientID : Option Id) (reputation : Int) (found : Bool)
    (h_clientID : IdOk clientID) (h_reputation : inI64 reputation) :
    Delivers gatewayAdminSetReputationResponse pr (clientID, reputation, found) := by
  obtain ⟨q_clientID, rfl, g_clientID⟩ := h_clientID
  refine delivers_of gatewayAdminSetReputationResponse pr hpr _ (Ids.toStr q_clientID, reputation, found, ()) (by decide +kernel) (show inI32 405 from ⟨by decide, by decide⟩) rfl ⟨good_str _, good_i64 h_reputation, good_bool _, trivial⟩ ?_
  simp [gatewayAdminSetReputationResponse, Ids.fromHex_toStr g_clientID]
example : Delivers gatewayAdminSetReputationResponse Message.defaultProtocol ((some (exId 1)), (-7), false) :=
  C30_gatewayAdminSetReputationResponse _ defaultProtocolOk (some (exId 1)) (-7) false (exIdOk 1) (⟨by decide, by decide⟩)

/-- `EncodeUpdateGatewayGroupCIDOfferSupportRequest` and its decoder. -/
theorem C30_updateGatewayGroupCIDOfferSupportRequest (pr : Protocol) (hpr : ProtocolOk pr) (nodeID : Option Id) (providerIDs : List Id)
    (h_nodeID : IdOk nodeID) (h_providerIDs : IdsOk providerIDs) :
    Delivers updateGatewayGroupCIDOfferSupportRequest pr (nodeID, providerIDs) := by
  obtain ⟨q_nodeID, rfl, g_nodeID⟩ := h_nodeID
  refine delivers_of updateGatewayGroupCIDOfferSupportRequest pr hpr _ (Ids.toStr q_nodeID, Ids.mapToString providerIDs, ()) (by decide +kernel) (show inI32 408 from ⟨by decide, by decide⟩) rfl ⟨good_str _, good_slice str _ (fun _ _ => good_str _), trivial⟩ ?_
  simp [updateGatewayGroupCIDOfferSupportRequest, Ids.fromHex_toStr g_nodeID, ids_toString h_providerIDs]
example : Delivers updateGatewayGroupCIDOfferSupportRequest Message.defaultProtocol ((some (exId 1)), [exId 3, exId 4]) :=
  C30_updateGatewayGroupCIDOfferSupportRequest _ defaultProtocolOk (some (exId 1)) [exId 3, exId 4] (exIdOk 1) (exIdsOk)

/-- `EncodeUpdateGatewayGroupCIDOfferSupportResponse` and its decoder. -/
theorem C30_updateGatewayGroupCIDOfferSupportResponse (pr : Protocol) (hpr : ProtocolOk pr) (success : Bool) :
    Delivers updateGatewayGroupCIDOfferSupportResponse pr success := by
  refine delivers_of updateGatewayGroupCIDOfferSupportResponse pr hpr _ (success, ()) (by decide +kernel) (show inI32 409 from ⟨by decide, by decide⟩) rfl ⟨good_bool _, trivial⟩ ?_
  rfl
example : Delivers updateGatewayGroupCIDOfferSupportResponse Message.defaultProtocol false :=
  C30_updateGatewayGroupCIDOfferSupportResponse _ defaultProtocolOk false

/-- `EncodeProviderPublishDHTOfferRequest` and its decoder (offers of one CID). -/
theorem C30_providerPublishDHTOfferRequest (H : Hash) (pr : Protocol) (hpr : ProtocolOk pr) (providerID : Option Id) (nonce : Int) (offers : List Offer.CidOffer)
    (h_providerID : IdOk providerID) (h_nonce : inI64 nonce) (h_offers : ∀ x ∈ offers, Offer.Built H x) (h_single : ∀ x ∈ offers, x.cids.length = 1) (h_len : inI64 offers.length) :
    Delivers (providerPublishDHTOfferRequest H) pr (providerID, nonce, offers) := by
  obtain ⟨q_providerID, rfl, g_providerID⟩ := h_providerID
  refine delivers_of (providerPublishDHTOfferRequest H) pr hpr _ (Ids.toStr q_providerID, nonce, (offers.length : Int), offers, ()) (by simp only [List.map_cons, List.map_nil, providerPublishDHTOfferRequest, providerPublishGroupOfferRequest, providerAdminGetPublishedOfferResponse]; decide +kernel) (show inI32 302 from ⟨by decide, by decide⟩) rfl ⟨good_str _, good_i64 h_nonce, good_i64 h_len, good_slice (offer H) _ (fun _ hx => good_offer (h_offers _ hx)), trivial⟩ ?_
  have hany : (offers.any fun o => !decide (o.cids.length = 1)) = false := by
    rw [List.any_eq_false]
    intro x hx
    simp [h_single x hx]
  simp [providerPublishDHTOfferRequest, Ids.fromHex_toStr g_providerID]
  exact hany
example : Delivers (providerPublishDHTOfferRequest Merkle.toyHash) Message.defaultProtocol ((some (exId 1)), (-7), [exSingle]) :=
  C30_providerPublishDHTOfferRequest Merkle.toyHash _ defaultProtocolOk (some (exId 1)) (-7) [exSingle] (exIdOk 1) (⟨by decide, by decide⟩) (exSinglesOk) (by intro x hx; simp at hx; subst hx; rfl) (⟨by decide, by decide⟩)

/-- `EncodeProviderPublishDHTOfferResponse` and its decoder. -/
theorem C30_providerPublishDHTOfferResponse (pr : Protocol) (hpr : ProtocolOk pr) (nonce : Int) (signature : List Char)
    (h_nonce : inI64 nonce) :
    Delivers providerPublishDHTOfferResponse pr (nonce, signature) := by
  refine delivers_of providerPublishDHTOfferResponse pr hpr _ (nonce, signature, ()) (by decide +kernel) (show inI32 303 from ⟨by decide, by decide⟩) rfl ⟨good_i64 h_nonce, good_str _, trivial⟩ ?_
  rfl
example : Delivers providerPublishDHTOfferResponse Message.defaultProtocol ((-7), "a\"b".toList) :=
  C30_providerPublishDHTOfferResponse _ defaultProtocolOk (-7) "a\"b".toList (⟨by decide, by decide⟩)

/-- `EncodeProviderPublishGroupOfferRequest` and its decoder. -/
theorem C30_providerPublishGroupOfferRequest (H : Hash) (pr : Protocol) (hpr : ProtocolOk pr) (providerID : Option Id) (nonce : Int) (offer : Option Offer.CidOffer)
    (h_providerID : IdOk providerID) (h_nonce : inI64 nonce) (h_offer : ∃ o, offer = some o ∧ Offer.Built H o) :
    Delivers (providerPublishGroupOfferRequest H) pr (providerID, nonce, offer) := by
  obtain ⟨q_providerID, rfl, g_providerID⟩ := h_providerID
  obtain ⟨q_offer, rfl, g_offer⟩ := h_offer
  refine delivers_of (providerPublishGroupOfferRequest H) pr hpr _ (Ids.toStr q_providerID, nonce, q_offer, ()) (by simp only [List.map_cons, List.map_nil, providerPublishDHTOfferRequest, providerPublishGroupOfferRequest, providerAdminGetPublishedOfferResponse]; decide +kernel) (show inI32 300 from ⟨by decide, by decide⟩) rfl ⟨good_str _, good_i64 h_nonce, good_offer g_offer, trivial⟩ ?_
  simp [providerPublishGroupOfferRequest, Ids.fromHex_toStr g_providerID]
example : Delivers (providerPublishGroupOfferRequest Merkle.toyHash) Message.defaultProtocol ((some (exId 1)), (-7), (some Offer.exOffer)) :=
  C30_providerPublishGroupOfferRequest Merkle.toyHash _ defaultProtocolOk (some (exId 1)) (-7) (some Offer.exOffer) (exIdOk 1) (⟨by decide, by decide⟩) (⟨_, rfl, Offer.exOffer_built⟩)

/-- `EncodeProviderPublishGroupOfferResponse` and its decoder. -/
theorem C30_providerPublishGroupOfferResponse (pr : Protocol) (hpr : ProtocolOk pr) (gatewayID : Option Id) (digest : List Char)
    (h_gatewayID : IdOk gatewayID) :
    Delivers providerPublishGroupOfferResponse pr (gatewayID, digest) := by
  obtain ⟨q_gatewayID, rfl, g_gatewayID⟩ := h_gatewayID
  refine delivers_of providerPublishGroupOfferResponse pr hpr _ (Ids.toStr q_gatewayID, digest, ()) (by decide +kernel) (show inI32 301 from ⟨by decide, by decide⟩) rfl ⟨good_str _, good_str _, trivial⟩ ?_
  simp [providerPublishGroupOfferResponse, Ids.fromHex_toStr g_gatewayID]
example : Delivers providerPublishGroupOfferResponse Message.defaultProtocol ((some (exId 1)), "a\"b".toList) :=
  C30_providerPublishGroupOfferResponse _ defaultProtocolOk (some (exId 1)) "a\"b".toList (exIdOk 1)

/-- `EncodeProviderAdminForceRefreshRequest` and its decoder. -/
theorem C30_providerAdminForceRefreshRequest (pr : Protocol) (hpr : ProtocolOk pr) (refresh : Bool) :
    Delivers providerAdminForceRefreshRequest pr refresh := by
  refine delivers_of providerAdminForceRefreshRequest pr hpr _ (refresh, ()) (by decide +kernel) (show inI32 508 from ⟨by decide, by decide⟩) rfl ⟨good_bool _, trivial⟩ ?_
  rfl
example : Delivers providerAdminForceRefreshRequest Message.defaultProtocol false :=
  C30_providerAdminForceRefreshRequest _ defaultProtocolOk false

/-- `EncodeProviderAdminForceRefreshResponse` and its decoder. -/
theorem C30_providerAdminForceRefreshResponse (pr : Protocol) (hpr : ProtocolOk pr) (refreshed : Bool) :
    Delivers providerAdminForceRefreshResponse pr refreshed := by
  refine delivers_of providerAdminForceRefreshResponse pr hpr _ (refreshed, ()) (by decide +kernel) (show inI32 509 from ⟨by decide, by decide⟩) rfl ⟨good_bool _, trivial⟩ ?_
  rfl
example : Delivers providerAdminForceRefreshResponse Message.defaultProtocol false :=
  C30_providerAdminForceRefreshResponse _ defaultProtocolOk false

/-- `EncodeProviderAdminGetPublishedOfferRequest` and its decoder. -/
theorem C30_providerAdminGetPublishedOfferRequest (pr : Protocol) (hpr : ProtocolOk pr) (gatewayIDs : List Id)
    (h_gatewayIDs : IdsOk gatewayIDs) :
    Delivers providerAdminGetPublishedOfferRequest pr gatewayIDs := by
  refine delivers_of providerAdminGetPublishedOfferRequest pr hpr _ (Ids.mapToString gatewayIDs, ()) (by decide +kernel) (show inI32 506 from ⟨by decide, by decide⟩) rfl ⟨good_slice str _ (fun _ _ => good_str _), trivial⟩ ?_
  simp [providerAdminGetPublishedOfferRequest, ids_toString h_gatewayIDs]
example : Delivers providerAdminGetPublishedOfferRequest Message.defaultProtocol [exId 3, exId 4] :=
  C30_providerAdminGetPublishedOfferRequest _ defaultProtocolOk [exId 3, exId 4] (exIdsOk)

/-- `EncodeProviderAdminGetPublishedOfferResponse` and its decoder. -/
theorem C30_providerAdminGetPublishedOfferResponse (H : Hash) (pr : Protocol) (hpr : ProtocolOk pr) (found : Bool) (offers : List Offer.CidOffer)
    (h_offers : ∀ x ∈ offers, Offer.Built H x) :
    Delivers (providerAdminGetPublishedOfferResponse H) pr (found, offers) := by
  refine delivers_of (providerAdminGetPublishedOfferResponse H) pr hpr _ (found, offers, ()) (by simp only [List.map_cons, List.map_nil, providerPublishDHTOfferRequest, providerPublishGroupOfferRequest, providerAdminGetPublishedOfferResponse]; decide +kernel) (show inI32 507 from ⟨by decide, by decide⟩) rfl ⟨good_bool _, good_slice (offer H) _ (fun _ hx => good_offer (h_offers _ hx)), trivial⟩ ?_
  rfl
example : Delivers (providerAdminGetPublishedOfferResponse Merkle.toyHash) Message.defaultProtocol (false, [Offer.exOffer]) :=
  C30_providerAdminGetPublishedOfferResponse Merkle.toyHash _ defaultProtocolOk false [Offer.exOffer] (exOffersOk)

/-- `EncodeProviderAdminInitialiseKeyRequest` and its decoder. -/
theorem C30_providerAdminInitialiseKeyRequest (pr : Protocol) (hpr : ProtocolOk pr) (nodeID : Option Id) (privateKey : Option Crypto.KeyPair) (keyVersion : Option Crypto.KeyVersion)
    (h_nodeID : IdOk nodeID) (h_privateKey : ∃ k, privateKey = some k ∧ Crypto.PrivateKey k) (h_keyVersion : ∃ v, keyVersion = some v) :
    Delivers providerAdminInitialiseKeyRequest pr (nodeID, privateKey, keyVersion) := by
  obtain ⟨q_nodeID, rfl, g_nodeID⟩ := h_nodeID
  obtain ⟨q_privateKey, rfl, g_privateKey⟩ := h_privateKey
  obtain ⟨q_keyVersion, rfl⟩ := h_keyVersion
  refine delivers_of providerAdminInitialiseKeyRequest pr hpr _ (Ids.toStr q_nodeID, Crypto.encodePrivateKey q_privateKey, q_keyVersion, ()) (by decide +kernel) (show inI32 500 from ⟨by decide, by decide⟩) rfl ⟨good_str _, good_str _, good_u32 _, trivial⟩ ?_
  simp [providerAdminInitialiseKeyRequest, Ids.fromHex_toStr g_nodeID, (Crypto.C33_private_key_round_trip q_privateKey g_privateKey).1, Crypto.decodeKeyVersion]
example : Delivers providerAdminInitialiseKeyRequest Message.defaultProtocol ((some (exId 1)), (some Offer.exKey), (some 3)) :=
  C30_providerAdminInitialiseKeyRequest _ defaultProtocolOk (some (exId 1)) (some Offer.exKey) (some 3) (exIdOk 1) (⟨_, rfl, Offer.exKey_private⟩) (⟨_, rfl⟩)

/-- `EncodeProviderAdminInitialiseKeyRequestV2` and its decoder. -/
theorem C30_providerAdminInitialiseKeyRequestV2 (pr : Protocol) (hpr : ProtocolOk pr) (nodeID : Option Id) (privateKey : Option Crypto.KeyPair) (keyVersion : Option Crypto.KeyVersion) (walletPrivateKey : List Char) (lotusAP : List Char) (lotusAuthToken : List Char)
    (h_nodeID : IdOk nodeID) (h_privateKey : ∃ k, privateKey = some k ∧ Crypto.PrivateKey k) (h_keyVersion : ∃ v, keyVersion = some v) :
    Delivers providerAdminInitialiseKeyRequestV2 pr (nodeID, privateKey, keyVersion, walletPrivateKey, lotusAP, lotusAuthToken) := by
  obtain ⟨q_nodeID, rfl, g_nodeID⟩ := h_nodeID
  obtain ⟨q_privateKey, rfl, g_privateKey⟩ := h_privateKey
  obtain ⟨q_keyVersion, rfl⟩ := h_keyVersion
  refine delivers_of providerAdminInitialiseKeyRequestV2 pr hpr _ (Ids.toStr q_nodeID, Crypto.encodePrivateKey q_privateKey, q_keyVersion, walletPrivateKey, lotusAP, lotusAuthToken, ()) (by decide +kernel) (show inI32 510 from ⟨by decide, by decide⟩) rfl ⟨good_str _, good_str _, good_u32 _, good_str _, good_str _, good_str _, trivial⟩ ?_
  simp [providerAdminInitialiseKeyRequestV2, Ids.fromHex_toStr g_nodeID, (Crypto.C33_private_key_round_trip q_privateKey g_privateKey).1, Crypto.decodeKeyVersion]
example : Delivers providerAdminInitialiseKeyRequestV2 Message.defaultProtocol ((some (exId 1)), (some Offer.exKey), (some 3), "a\"b".toList, "a\"b".toList, "a\"b".toList) :=
  C30_providerAdminInitialiseKeyRequestV2 _ defaultProtocolOk (some (exId 1)) (some Offer.exKey) (some 3) "a\"b".toList "a\"b".toList "a\"b".toList (exIdOk 1) (⟨_, rfl, Offer.exKey_private⟩) (⟨_, rfl⟩)

/-- `EncodeProviderAdminInitialiseKeyResponse` and its decoder. -/
theorem C30_providerAdminInitialiseKeyResponse (pr : Protocol) (hpr : ProtocolOk pr) (success : Bool) :
    Delivers providerAdminInitialiseKeyResponse pr success := by
  refine delivers_of providerAdminInitialiseKeyResponse pr hpr _ (success, ()) (by decide +kernel) (show inI32 501 from ⟨by decide, by decide⟩) rfl ⟨good_bool _, trivial⟩ ?_
  rfl
example : Delivers providerAdminInitialiseKeyResponse Message.defaultProtocol false :=
  C30_providerAdminInitialiseKeyResponse _ defaultProtocolOk false

/-- `EncodeProviderAdminPublishDHTOfferRequest` and its decoder. -/
theorem C30_providerAdminPublishDHTOfferRequest (pr : Protocol) (hpr : ProtocolOk pr) (cids : List Id) (price : List Nat) (expiry : List Int) (qos : List Nat)
    (h_cids : IdsOk cids) (h_price : ∀ x ∈ price, x < 2 ^ 64) (h_expiry : ∀ x ∈ expiry, inI64 x) (h_qos : ∀ x ∈ qos, x < 2 ^ 64) :
    Delivers providerAdminPublishDHTOfferRequest pr (cids, price, expiry, qos) := by
  refine delivers_of providerAdminPublishDHTOfferRequest pr hpr _ (Ids.mapToString cids, price, expiry, qos, ()) (by decide +kernel) (show inI32 504 from ⟨by decide, by decide⟩) rfl ⟨good_slice str _ (fun _ _ => good_str _), good_slice u64 _ (fun _ hx => good_u64 (h_price _ hx)), good_slice i64 _ (fun _ hx => good_i64 (h_expiry _ hx)), good_slice u64 _ (fun _ hx => good_u64 (h_qos _ hx)), trivial⟩ ?_
  simp [providerAdminPublishDHTOfferRequest, ids_toString h_cids]
example : Delivers providerAdminPublishDHTOfferRequest Message.defaultProtocol ([exId 3, exId 4], [5, 6], [5, -6], [5, 6]) :=
  C30_providerAdminPublishDHTOfferRequest _ defaultProtocolOk [exId 3, exId 4] [5, 6] [5, -6] [5, 6] (exIdsOk) (by decide) (by unfold inI64; decide) (by decide)

/-- `EncodeProviderAdminPublishDHTOfferResponse` and its decoder. -/
theorem C30_providerAdminPublishDHTOfferResponse (pr : Protocol) (hpr : ProtocolOk pr) (received : Bool) :
    Delivers providerAdminPublishDHTOfferResponse pr received := by
  refine delivers_of providerAdminPublishDHTOfferResponse pr hpr _ (received, ()) (by decide +kernel) (show inI32 505 from ⟨by decide, by decide⟩) rfl ⟨good_bool _, trivial⟩ ?_
  rfl
example : Delivers providerAdminPublishDHTOfferResponse Message.defaultProtocol false :=
  C30_providerAdminPublishDHTOfferResponse _ defaultProtocolOk false

/-- `EncodeProviderAdminPublishGroupOfferRequest` and its decoder. -/
theorem C30_providerAdminPublishGroupOfferRequest (pr : Protocol) (hpr : ProtocolOk pr) (cids : List Id) (price : Nat) (expiry : Int) (qos : Nat)
    (h_cids : IdsOk cids) (h_price : price < 2 ^ 64) (h_expiry : inI64 expiry) (h_qos : qos < 2 ^ 64) :
    Delivers providerAdminPublishGroupOfferRequest pr (cids, price, expiry, qos) := by
  refine delivers_of providerAdminPublishGroupOfferRequest pr hpr _ (Ids.mapToString cids, price, expiry, qos, ()) (by decide +kernel) (show inI32 502 from ⟨by decide, by decide⟩) rfl ⟨good_slice str _ (fun _ _ => good_str _), good_u64 h_price, good_i64 h_expiry, good_u64 h_qos, trivial⟩ ?_
  simp [providerAdminPublishGroupOfferRequest, ids_toString h_cids]
example : Delivers providerAdminPublishGroupOfferRequest Message.defaultProtocol ([exId 3, exId 4], 18446744073709551615, (-7), 18446744073709551615) :=
  C30_providerAdminPublishGroupOfferRequest _ defaultProtocolOk [exId 3, exId 4] 18446744073709551615 (-7) 18446744073709551615 (exIdsOk) (by decide) (⟨by decide, by decide⟩) (by decide)

/-- `EncodeProviderAdminPublishGroupOfferResponse` and its decoder. -/
theorem C30_providerAdminPublishGroupOfferResponse (pr : Protocol) (hpr : ProtocolOk pr) (received : Bool) :
    Delivers providerAdminPublishGroupOfferResponse pr received := by
  refine delivers_of providerAdminPublishGroupOfferResponse pr hpr _ (received, ()) (by decide +kernel) (show inI32 503 from ⟨by decide, by decide⟩) rfl ⟨good_bool _, trivial⟩ ?_
  rfl
example : Delivers providerAdminPublishGroupOfferResponse Message.defaultProtocol false :=
  C30_providerAdminPublishGroupOfferResponse _ defaultProtocolOk false

/-! ## the exceptions -/

/-- The two acknowledgements are decoded to `true` whatever was sent: for every nonce, an acknowledgement encoded with `false`
is delivered and read as `true`. -/
theorem C30_refuted (pr : Protocol) (hpr : ProtocolOk pr) (nonce : Int) (hn : inI64 nonce) :
    (∃ m, encode gatewayNotifyProviderGroupCIDOfferSupportResponse pr false = .ok m ∧
      Message.fromBytes (Message.toBytes m) = .ok m ∧
      decode gatewayNotifyProviderGroupCIDOfferSupportResponse m = .ok true) ∧
    (∃ m, encode gatewayPingResponse pr (nonce, false) = .ok m ∧ Message.fromBytes (Message.toBytes m) = .ok m ∧
      decode gatewayPingResponse m = .ok (nonce, true)) := by
  refine ⟨⟨_, rfl, Message.C27_wire_round_trip _ ⟨show inI32 206 from ⟨by decide, by decide⟩, hpr.1, hpr.2⟩, ?_⟩,
    ⟨_, rfl, Message.C27_wire_round_trip _ ⟨show inI32 206 from ⟨by decide, by decide⟩, hpr.1, hpr.2⟩, ?_⟩⟩
  · exact decode_of_vals gatewayNotifyProviderGroupCIDOfferSupportResponse _ (false, ()) (by decide +kernel)
      ⟨good_bool _, trivial⟩ rfl ⟨_, rfl, rfl⟩
  · exact decode_of_vals gatewayPingResponse _ (nonce, false, ()) (by decide +kernel)
      ⟨good_i64 hn, good_bool _, trivial⟩ rfl ⟨_, rfl, rfl⟩
example : ProtocolOk Message.defaultProtocol ∧ inI64 4 := ⟨defaultProtocolOk, ⟨by decide, by decide⟩⟩

/-- A publication of offers to the DHT that contains an offer with other than one CID is refused by the receiver, whatever
else it contains. -/
theorem C30_group_offers_refused (H : Hash) (pr : Protocol) (p : Id) (nonce : Int) (hn : inI64 nonce) (offers : List Offer.CidOffer)
    (ho : ∀ x ∈ offers, Offer.Built H x) (hl : inI64 offers.length) (hg : ∃ x ∈ offers, x.cids.length ≠ 1) :
    ∃ m, encode (providerPublishDHTOfferRequest H) pr (some p, nonce, offers) = .ok m ∧ decode (providerPublishDHTOfferRequest H) m = .err := by
  have hgood : AllGood (providerPublishDHTOfferRequest H).schema (Ids.toStr p, nonce, (offers.length : Int), offers, ()) :=
    ⟨good_str _, good_i64 hn, good_i64 hl, good_slice (offer H) _ (fun _ hx => good_offer (ho _ hx)), trivial⟩
  obtain ⟨fs, h1, h2⟩ := encFields_ok _ _ hgood
  refine ⟨Message.create pr 302 (some (Message.jsonText (.obj fs))), ?_, ?_⟩
  · exact encode_of_vals (providerPublishDHTOfferRequest H) pr _ _ rfl h1
  · rw [decode_of_vals (providerPublishDHTOfferRequest H) _ _ (by simp only [List.map_cons, List.map_nil, providerPublishDHTOfferRequest, providerPublishGroupOfferRequest, providerAdminGetPublishedOfferResponse]; decide +kernel) hgood rfl ⟨fs, h1, rfl⟩]
    have hany : (offers.any fun o => !decide (o.cids.length = 1)) = true := by
      rw [List.any_eq_true]
      obtain ⟨x, hx, hne⟩ := hg
      exact ⟨x, hx, by simp [hne]⟩
    simp [providerPublishDHTOfferRequest]
    exact hany
example : ∃ m, encode (providerPublishDHTOfferRequest Merkle.toyHash) Message.defaultProtocol (some (exId 1), 4, [exSingle, Offer.exOffer]) = .ok m ∧
    decode (providerPublishDHTOfferRequest Merkle.toyHash) m = .err := by
  refine C30_group_offers_refused _ _ _ _ ⟨by decide, by decide⟩ _ ?_ ⟨by decide, by decide⟩ ⟨Offer.exOffer, by simp, by decide +kernel⟩
  intro x hx
  simp at hx
  rcases hx with rfl | rfl
  · exact exSinglesOk _ (by simp)
  · exact Offer.exOffer_built

/-- A message of another kind is an error for every decoder. -/
theorem C30_wrong_kind {α : Type} (c : Codec α) (m : Msg) (h : m.type ≠ c.code) : decode c m = .err := by
  unfold decode
  exact if_pos h
example : decode gatewayPingRequest Message.exMsg = .err := C30_wrong_kind _ _ (by decide)

end FcRetrieval.Codecs
