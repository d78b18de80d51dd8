import Verif.Props.Codecs
/-!
# C29: type codes; C89: decoding never crashes
-/
set_option linter.unusedSimpArgs false

namespace FcRetrieval.Codecs
open FcRetrieval.Ids (Id)
open FcRetrieval.Merkle (Hash exId exId_proper)
open FcRetrieval.Message (Msg Protocol)
open FcRetrieval.Wire

theorem decode_of_fields {α : Type} (c : Codec α) (m : Msg) (fs : List (String × Json)) (ht : m.type = c.code)
    (hb : m.body = some (Message.jsonText (.obj fs))) : decode c m = (decFields c.schema fs >>= c.ofWire) := by
  have hp : Message.parseText (Message.jsonText (.obj fs)) = some (.obj fs) := json_text_round_trip _
  unfold decode
  rw [if_neg (by simp [ht]), hb]
  simp only [Option.getD_some, hp, Res.ofOption, Res.bind_ok, decObj]

/-- The codes of the kinds, in the order of the list. -/
def codeTable : List (String × Int) := [
  ("invalidMessageResponse", 902),
  ("protocolChangeRequest", 900),
  ("protocolChangeResponse", 901),
  ("clientDHTDiscoverOfferRequest", 114),
  ("clientDHTDiscoverOfferResponse", 115),
  ("clientDHTDiscoverRequest", 104),
  ("clientDHTDiscoverRequestV2", 112),
  ("clientDHTDiscoverResponse", 105),
  ("clientDHTDiscoverResponseV2", 113),
  ("clientDHTOfferAckRequest", 106),
  ("clientDHTOfferAckResponse", 107),
  ("clientEstablishmentRequest", 100),
  ("clientEstablishmentResponse", 101),
  ("clientStandardDiscoverOfferRequest", 110),
  ("clientStandardDiscoverOfferResponse", 111),
  ("clientStandardDiscoverRequest", 102),
  ("clientStandardDiscoverRequestV2", 108),
  ("clientStandardDiscoverResponse", 103),
  ("clientStandardDiscoverResponseV2", 109),
  ("gatewayDHTDiscoverOfferRequest", 209),
  ("gatewayDHTDiscoverOfferResponse", 210),
  ("gatewayDHTDiscoverRequest", 203),
  ("gatewayDHTDiscoverRequestV2", 207),
  ("gatewayDHTDiscoverResponse", 204),
  ("gatewayDHTDiscoverResponseV2", 208),
  ("gatewayListDHTOfferAck", 202),
  ("gatewayListDHTOfferRequest", 200),
  ("gatewayListDHTOfferResponse", 201),
  ("gatewayNotifyProviderGroupCIDOfferSupportRequest", 205),
  ("gatewayNotifyProviderGroupCIDOfferSupportResponse", 206),
  ("gatewayPingRequest", 205),
  ("gatewayPingResponse", 206),
  ("gatewayAdminForceRefreshRequest", 406),
  ("gatewayAdminForceRefreshResponse", 407),
  ("gatewayAdminGetReputationRequest", 402),
  ("gatewayAdminGetReputationResponse", 403),
  ("gatewayAdminInitialiseKeyRequest", 400),
  ("gatewayAdminInitialiseKeyRequestV2", 412),
  ("gatewayAdminInitialiseKeyResponse", 401),
  ("gatewayAdminListDHTOfferRequest", 410),
  ("gatewayAdminListDHTOfferResponse", 411),
  ("gatewayAdminSetReputationRequest", 404),
  ("gatewayAdminSetReputationResponse", 405),
  ("updateGatewayGroupCIDOfferSupportRequest", 408),
  ("updateGatewayGroupCIDOfferSupportResponse", 409),
  ("providerPublishDHTOfferRequest", 302),
  ("providerPublishDHTOfferResponse", 303),
  ("providerPublishGroupOfferRequest", 300),
  ("providerPublishGroupOfferResponse", 301),
  ("providerAdminForceRefreshRequest", 508),
  ("providerAdminForceRefreshResponse", 509),
  ("providerAdminGetPublishedOfferRequest", 506),
  ("providerAdminGetPublishedOfferResponse", 507),
  ("providerAdminInitialiseKeyRequest", 500),
  ("providerAdminInitialiseKeyRequestV2", 510),
  ("providerAdminInitialiseKeyResponse", 501),
  ("providerAdminPublishDHTOfferRequest", 504),
  ("providerAdminPublishDHTOfferResponse", 505),
  ("providerAdminPublishGroupOfferRequest", 502),
  ("providerAdminPublishGroupOfferResponse", 503)]

theorem kinds_codes (H : Hash) : (kinds H).map (fun k => (k.name, k.code)) = codeTable := rfl

theorem accepts_code {H : Hash} {k : Kind} (hk : k ∈ kinds H) {m : Msg} (h : k.accepts m) : m.type = k.code := by
  have key : ∀ {α : Type} (n : String) (c : Codec α), (kind n c).accepts m → m.type = (kind n c).code := by
    intro α n c ⟨a, ha⟩
    by_cases ht : m.type = c.code
    · exact ht
    · rw [C30_wrong_kind c m ht] at ha; cases ha
  simp only [kinds, List.mem_cons, List.not_mem_nil, or_false] at hk
  repeat' first | (rcases hk with rfl | hk; exact key _ _ h) | (subst hk; exact key _ _ h)

/-- There are sixty kinds with sixty names. -/
theorem C29_names (H : Hash) : (kinds H).length = 60 ∧ ((kinds H).map Kind.name).Nodup := by
  refine ⟨rfl, ?_⟩
  have : (kinds H).map Kind.name = codeTable.map Prod.fst := rfl
  rw [this]
  decide +kernel

/-- Two kinds with the same code are the same kind, except for the codes 205 and 206. -/
theorem C29_codes_partial (H : Hash) (k k' : Kind) (hk : k ∈ kinds H) (hk' : k' ∈ kinds H) (h : k.code = k'.code)
    (h5 : k.code ≠ 205) (h6 : k.code ≠ 206) : k.name = k'.name := by
  have hm : ∀ x ∈ kinds H, (x.name, x.code) ∈ codeTable := by
    intro x hx
    rw [← kinds_codes H]
    exact List.mem_map.2 ⟨x, hx, rfl⟩
  have hd : ∀ a ∈ codeTable, ∀ b ∈ codeTable, a.2 = b.2 → a.2 ≠ 205 → a.2 ≠ 206 → a.1 = b.1 := by decide +kernel
  exact hd _ (hm k hk) _ (hm k' hk') h h5 h6

/-- No message of another code than 205 and 206 is accepted by the decoders of two kinds. -/
theorem C29_one_decoder_partial (H : Hash) (m : Msg) (h5 : m.type ≠ 205) (h6 : m.type ≠ 206) (k k' : Kind) (hk : k ∈ kinds H)
    (hk' : k' ∈ kinds H) (h : k.accepts m) (h' : k'.accepts m) : k.name = k'.name := by
  have e := accepts_code hk h
  have e' := accepts_code hk' h'
  exact C29_codes_partial H k k' hk hk' (e.symm.trans e') (by rw [← e]; exact h5) (by rw [← e]; exact h6)

/-- A message that a decoder accepts, of a code other than 205 and 206. -/
example : ∃ m, m.type ≠ 205 ∧ m.type ≠ 206 ∧ (kind "protocolChangeResponse" protocolChangeResponse).accepts m := by
  obtain ⟨m, _, h2, _, _, h3⟩ := C30_protocolChangeResponse _ defaultProtocolOk false
  refine ⟨m, by rw [h2]; decide, by rw [h2]; decide, false, (h3 m.signature).2⟩

/-- Every ping is accepted as a notification that group offers are not supported, and every such notification as a ping; every
answer to a ping is accepted as an acknowledgement of a notification, and the other way round. -/
theorem C29_refuted (pr : Protocol) (g : Id) (hg : g.length = 32) (nonce ttl : Int) (b : Bool) :
    (∃ m, encode gatewayPingRequest pr (some g, nonce, ttl) = .ok m ∧
      decode gatewayNotifyProviderGroupCIDOfferSupportRequest m = .ok (some g, false)) ∧
    (∃ m, encode gatewayNotifyProviderGroupCIDOfferSupportRequest pr (some g, b) = .ok m ∧
      decode gatewayPingRequest m = .ok (some g, 0, 0)) ∧
    (∃ m, encode gatewayPingResponse pr (nonce, b) = .ok m ∧
      decode gatewayNotifyProviderGroupCIDOfferSupportResponse m = .ok true) ∧
    (∃ m, encode gatewayNotifyProviderGroupCIDOfferSupportResponse pr b = .ok m ∧
      decode gatewayPingResponse m = .ok (0, true)) := by
  have hx : Ids.fromHex (Ids.toStr g) = some g := Ids.fromHex_toStr hg
  refine ⟨⟨_, rfl, ?_⟩, ⟨_, rfl, ?_⟩, ⟨_, rfl, ?_⟩, ⟨_, rfl, ?_⟩⟩
  · rw [decode_of_fields gatewayNotifyProviderGroupCIDOfferSupportRequest _ _ rfl rfl, ← hx]
    rfl
  · rw [decode_of_fields gatewayPingRequest _ _ rfl rfl, ← hx]
    rfl
  · rw [decode_of_fields gatewayNotifyProviderGroupCIDOfferSupportResponse _ _ rfl rfl]
    rfl
  · rw [decode_of_fields gatewayPingResponse _ _ rfl rfl]
    rfl
example : (exId 1).length = 32 := exId_proper 1

/-! ## crashes -/

theorem crashes_of {α : Type} (c : Codec α) (fs : List (String × Json)) (hc : inI32 c.code)
    (h : (decFields c.schema fs >>= c.ofWire) = .panic) : Crashes c := by
  refine ⟨_, Message.create Message.defaultProtocol c.code (some (Message.jsonText (.obj fs))),
    Message.C27_wire_round_trip _ ⟨hc, defaultProtocolOk.1, defaultProtocolOk.2⟩, ?_⟩
  rw [decode_of_fields c _ fs rfl rfl, h]

/-- The kinds whose decoder no message can crash. -/
theorem C89_partial :
    NeverPanics invalidMessageResponse ∧
    NeverPanics protocolChangeRequest ∧
    NeverPanics protocolChangeResponse ∧
    NeverPanics clientDHTDiscoverRequest ∧
    NeverPanics clientDHTDiscoverRequestV2 ∧
    NeverPanics clientDHTOfferAckRequest ∧
    NeverPanics clientDHTOfferAckResponse ∧
    NeverPanics clientEstablishmentRequest ∧
    NeverPanics clientEstablishmentResponse ∧
    NeverPanics clientStandardDiscoverOfferRequest ∧
    NeverPanics clientStandardDiscoverOfferResponse ∧
    NeverPanics clientStandardDiscoverRequest ∧
    NeverPanics clientStandardDiscoverRequestV2 ∧
    NeverPanics clientStandardDiscoverResponse ∧
    NeverPanics clientStandardDiscoverResponseV2 ∧
    NeverPanics gatewayDHTDiscoverOfferRequest ∧
    NeverPanics gatewayDHTDiscoverOfferResponse ∧
    NeverPanics gatewayDHTDiscoverRequest ∧
    NeverPanics gatewayDHTDiscoverRequestV2 ∧
    NeverPanics gatewayDHTDiscoverResponse ∧
    NeverPanics gatewayDHTDiscoverResponseV2 ∧
    NeverPanics gatewayListDHTOfferAck ∧
    NeverPanics gatewayListDHTOfferRequest ∧
    NeverPanics gatewayListDHTOfferResponse ∧
    NeverPanics gatewayNotifyProviderGroupCIDOfferSupportRequest ∧
    NeverPanics gatewayNotifyProviderGroupCIDOfferSupportResponse ∧
    NeverPanics gatewayPingRequest ∧
    NeverPanics gatewayPingResponse ∧
    NeverPanics gatewayAdminForceRefreshRequest ∧
    NeverPanics gatewayAdminForceRefreshResponse ∧
    NeverPanics gatewayAdminGetReputationRequest ∧
    NeverPanics gatewayAdminGetReputationResponse ∧
    NeverPanics gatewayAdminInitialiseKeyResponse ∧
    NeverPanics gatewayAdminListDHTOfferRequest ∧
    NeverPanics gatewayAdminListDHTOfferResponse ∧
    NeverPanics gatewayAdminSetReputationRequest ∧
    NeverPanics gatewayAdminSetReputationResponse ∧
    NeverPanics updateGatewayGroupCIDOfferSupportResponse ∧
    NeverPanics providerPublishDHTOfferResponse ∧
    NeverPanics providerPublishGroupOfferResponse ∧
    NeverPanics providerAdminForceRefreshRequest ∧
    NeverPanics providerAdminForceRefreshResponse ∧
    NeverPanics providerAdminInitialiseKeyResponse ∧
    NeverPanics providerAdminPublishDHTOfferResponse ∧
    NeverPanics providerAdminPublishGroupOfferResponse :=
  ⟨neverPanics_of invalidMessageResponse (by simp [invalidMessageResponse]) (fun _ h => by cases h),
   neverPanics_of protocolChangeRequest (by simp [protocolChangeRequest, np_i32]) (fun _ h => by cases h),
   neverPanics_of protocolChangeResponse (by simp [protocolChangeResponse, np_bool]) (fun _ h => by cases h),
   neverPanics_of clientDHTDiscoverRequest (by simp [clientDHTDiscoverRequest, np_bool, np_i64, np_str]) (fun _ h => by cases h),
   neverPanics_of clientDHTDiscoverRequestV2 (by simp [clientDHTDiscoverRequestV2, np_bool, np_i64, np_str]) (fun _ h => by cases h),
   neverPanics_of clientDHTOfferAckRequest (by simp [clientDHTOfferAckRequest, np_str]) (fun _ h => by cases h),
   neverPanics_of clientDHTOfferAckResponse (by simp [clientDHTOfferAckResponse, np_bool, np_msg, np_str]) (fun _ h => by cases h),
   neverPanics_of clientEstablishmentRequest (by simp [clientEstablishmentRequest, np_i64, np_str]) (fun _ h => by cases h),
   neverPanics_of clientEstablishmentResponse (by simp [clientEstablishmentResponse, np_str]) (fun _ h => by cases h),
   neverPanics_of clientStandardDiscoverOfferRequest (by simp [clientStandardDiscoverOfferRequest, (np_slice np_str), np_i64, np_str]) (fun _ h => by cases h),
   neverPanics_of clientStandardDiscoverOfferResponse (by simp [clientStandardDiscoverOfferResponse, (np_slice np_bool), (np_slice np_subOffer), np_bool, np_i64, np_str]) (fun _ h => by cases h),
   neverPanics_of clientStandardDiscoverRequest (by simp [clientStandardDiscoverRequest, np_i64, np_str]) (fun _ h => by cases h),
   neverPanics_of clientStandardDiscoverRequestV2 (by simp [clientStandardDiscoverRequestV2, np_i64, np_str]) (fun _ h => by cases h),
   neverPanics_of clientStandardDiscoverResponse (by simp [clientStandardDiscoverResponse, (np_slice np_bool), (np_slice np_subOffer), np_bool, np_i64, np_str]) (fun _ h => by cases h),
   neverPanics_of clientStandardDiscoverResponseV2 (by simp [clientStandardDiscoverResponseV2, (np_slice np_bool), (np_slice np_str), np_bool, np_i64, np_str]) (fun _ h => by cases h),
   neverPanics_of gatewayDHTDiscoverOfferRequest (by simp [gatewayDHTDiscoverOfferRequest, (np_slice np_str), np_i64, np_str]) (fun _ h => by cases h),
   neverPanics_of gatewayDHTDiscoverOfferResponse (by simp [gatewayDHTDiscoverOfferResponse, (np_slice np_bool), (np_slice np_subOffer), np_bool, np_i64, np_str]) (fun _ h => by cases h),
   neverPanics_of gatewayDHTDiscoverRequest (by simp [gatewayDHTDiscoverRequest, np_i64, np_str]) (fun _ h => by cases h),
   neverPanics_of gatewayDHTDiscoverRequestV2 (by simp [gatewayDHTDiscoverRequestV2, np_i64, np_str]) (fun _ h => by cases h),
   neverPanics_of gatewayDHTDiscoverResponse (by simp [gatewayDHTDiscoverResponse, (np_slice np_bool), (np_slice np_subOffer), np_bool, np_i64, np_str]) (fun _ h => by cases h),
   neverPanics_of gatewayDHTDiscoverResponseV2 (by simp [gatewayDHTDiscoverResponseV2, (np_slice np_bool), (np_slice np_str), np_bool, np_i64, np_str]) (fun _ h => by cases h),
   neverPanics_of gatewayListDHTOfferAck (by simp [gatewayListDHTOfferAck, (np_slice np_msg)]) (fun _ h => by cases h),
   neverPanics_of gatewayListDHTOfferRequest (by simp [gatewayListDHTOfferRequest, np_proof, np_str]) (fun _ h => by cases h),
   neverPanics_of gatewayListDHTOfferResponse (by simp [gatewayListDHTOfferResponse, (np_slice np_msg)]) (fun _ h => by cases h),
   neverPanics_of gatewayNotifyProviderGroupCIDOfferSupportRequest (by simp [gatewayNotifyProviderGroupCIDOfferSupportRequest, np_bool, np_str]) (fun _ h => by cases h),
   neverPanics_of gatewayNotifyProviderGroupCIDOfferSupportResponse (by simp [gatewayNotifyProviderGroupCIDOfferSupportResponse, np_bool]) (fun _ h => by cases h),
   neverPanics_of gatewayPingRequest (by simp [gatewayPingRequest, np_i64, np_str]) (fun _ h => by cases h),
   neverPanics_of gatewayPingResponse (by simp [gatewayPingResponse, np_bool, np_i64]) (fun _ h => by cases h),
   neverPanics_of gatewayAdminForceRefreshRequest (by simp [gatewayAdminForceRefreshRequest, np_bool]) (fun _ h => by cases h),
   neverPanics_of gatewayAdminForceRefreshResponse (by simp [gatewayAdminForceRefreshResponse, np_bool]) (fun _ h => by cases h),
   neverPanics_of gatewayAdminGetReputationRequest (by simp [gatewayAdminGetReputationRequest, np_str]) (fun _ h => by cases h),
   neverPanics_of gatewayAdminGetReputationResponse (by simp [gatewayAdminGetReputationResponse, np_bool, np_i64, np_str]) (fun _ h => by cases h),
   neverPanics_of gatewayAdminInitialiseKeyResponse (by simp [gatewayAdminInitialiseKeyResponse, np_bool]) (fun _ h => by cases h),
   neverPanics_of gatewayAdminListDHTOfferRequest (by simp [gatewayAdminListDHTOfferRequest, np_bool]) (fun _ h => by cases h),
   neverPanics_of gatewayAdminListDHTOfferResponse (by simp [gatewayAdminListDHTOfferResponse, np_bool]) (fun _ h => by cases h),
   neverPanics_of gatewayAdminSetReputationRequest (by simp [gatewayAdminSetReputationRequest, np_i64, np_str]) (fun _ h => by cases h),
   neverPanics_of gatewayAdminSetReputationResponse (by simp [gatewayAdminSetReputationResponse, np_bool, np_i64, np_str]) (fun _ h => by cases h),
   neverPanics_of updateGatewayGroupCIDOfferSupportResponse (by simp [updateGatewayGroupCIDOfferSupportResponse, np_bool]) (fun _ h => by cases h),
   neverPanics_of providerPublishDHTOfferResponse (by simp [providerPublishDHTOfferResponse, np_i64, np_str]) (fun _ h => by cases h),
   neverPanics_of providerPublishGroupOfferResponse (by simp [providerPublishGroupOfferResponse, np_str]) (fun _ h => by cases h),
   neverPanics_of providerAdminForceRefreshRequest (by simp [providerAdminForceRefreshRequest, np_bool]) (fun _ h => by cases h),
   neverPanics_of providerAdminForceRefreshResponse (by simp [providerAdminForceRefreshResponse, np_bool]) (fun _ h => by cases h),
   neverPanics_of providerAdminInitialiseKeyResponse (by simp [providerAdminInitialiseKeyResponse, np_bool]) (fun _ h => by cases h),
   neverPanics_of providerAdminPublishDHTOfferResponse (by simp [providerAdminPublishDHTOfferResponse, np_bool]) (fun _ h => by cases h),
   neverPanics_of providerAdminPublishGroupOfferResponse (by simp [providerAdminPublishGroupOfferResponse, np_bool]) (fun _ h => by cases h)⟩

/-- A list with a malformed identifier anywhere crashes the decoder that gets it. -/
theorem ids_panic {s : List Char} (h : Ids.fromHex s = none) : ∀ l, s ∈ l → ids l = .panic := by
  have key : ∀ l, s ∈ l → Ids.mapFromString l = none := by
    intro l
    induction l with
    | nil => simp
    | cons x l ih =>
      intro hm
      simp only [List.mem_cons] at hm
      simp only [Ids.mapFromString]
      rcases hm with rfl | hm
      · rw [h]
      · rw [ih hm]
        cases Ids.fromHex x <;> rfl
  intro l hl
  unfold ids
  rw [key l hl]

/-- The kinds whose decoder a peer can crash: a malformed identifier in a list, a malformed CID in an offer, a missing
private key. -/
theorem C89_refuted (H : Hash) :
    Crashes clientDHTDiscoverOfferRequest ∧
    Crashes clientDHTDiscoverOfferResponse ∧
    Crashes clientDHTDiscoverResponse ∧
    Crashes clientDHTDiscoverResponseV2 ∧
    Crashes updateGatewayGroupCIDOfferSupportRequest ∧
    Crashes providerAdminGetPublishedOfferRequest ∧
    Crashes providerAdminPublishDHTOfferRequest ∧
    Crashes providerAdminPublishGroupOfferRequest ∧
    Crashes (providerPublishDHTOfferRequest H) ∧
    Crashes (providerPublishGroupOfferRequest H) ∧
    Crashes (providerAdminGetPublishedOfferResponse H) ∧
    Crashes gatewayAdminInitialiseKeyRequest ∧
    Crashes gatewayAdminInitialiseKeyRequestV2 ∧
    Crashes providerAdminInitialiseKeyRequest ∧
    Crashes providerAdminInitialiseKeyRequestV2 :=
  ⟨crashes_of clientDHTDiscoverOfferRequest [("gateway_ids", .arr [.str "zz".toList])] (show inI32 114 from ⟨by decide, by decide⟩) (by rfl),
   crashes_of clientDHTDiscoverOfferResponse [("gateway_ids", .arr [.str "zz".toList])] (show inI32 115 from ⟨by decide, by decide⟩) (by rfl),
   crashes_of clientDHTDiscoverResponse [("contacted_gateways", .arr [.str "zz".toList])] (show inI32 105 from ⟨by decide, by decide⟩) (by rfl),
   crashes_of clientDHTDiscoverResponseV2 [("contacted_gateways", .arr [.str "zz".toList])] (show inI32 113 from ⟨by decide, by decide⟩) (by rfl),
   crashes_of updateGatewayGroupCIDOfferSupportRequest [("provider_ids", .arr [.str "zz".toList])] (show inI32 408 from ⟨by decide, by decide⟩) (by rfl),
   crashes_of providerAdminGetPublishedOfferRequest [("gateway_id", .arr [.str "zz".toList])] (show inI32 506 from ⟨by decide, by decide⟩) (by rfl),
   crashes_of providerAdminPublishDHTOfferRequest [("cids", .arr [.str "zz".toList])] (show inI32 504 from ⟨by decide, by decide⟩) (by rfl),
   crashes_of providerAdminPublishGroupOfferRequest [("cids", .arr [.str "zz".toList])] (show inI32 502 from ⟨by decide, by decide⟩) (by rfl),
   crashes_of (providerPublishDHTOfferRequest H) [("single_offers", .arr [.obj [("cids", .arr [.str "zz".toList])]])] (show inI32 302 from ⟨by decide, by decide⟩) (by rfl),
   crashes_of (providerPublishGroupOfferRequest H) [("offer", .obj [("cids", .arr [.str "zz".toList])])] (show inI32 300 from ⟨by decide, by decide⟩) (by rfl),
   crashes_of (providerAdminGetPublishedOfferResponse H) [("cid_offers", .arr [.obj [("cids", .arr [.str "zz".toList])]])] (show inI32 507 from ⟨by decide, by decide⟩) (by rfl),
   crashes_of gatewayAdminInitialiseKeyRequest [] (show inI32 400 from ⟨by decide, by decide⟩) (by rfl),
   crashes_of gatewayAdminInitialiseKeyRequestV2 [] (show inI32 412 from ⟨by decide, by decide⟩) (by rfl),
   crashes_of providerAdminInitialiseKeyRequest [] (show inI32 500 from ⟨by decide, by decide⟩) (by rfl),
   crashes_of providerAdminInitialiseKeyRequestV2 [] (show inI32 510 from ⟨by decide, by decide⟩) (by rfl)⟩

/-- The crash does not need luck: any message of these kinds with a malformed identifier anywhere in the list crashes the
decoder, whatever the other members. -/
theorem C89_any_malformed_id (s : List Char) (hs : Ids.fromHex s = none) (l : List (List Char)) (hl : s ∈ l)
    (price : Nat) (hp : price < 2 ^ 64) (qos : Nat) (hq : qos < 2 ^ 64) (expiry : Int) (he : inI64 expiry) (m : Msg)
    (ht : m.type = 502) (hb : m.body = some (Message.jsonText (.obj [("cids", jsonStrs l), ("price", .num price), ("expiry", .num expiry), ("qos", .num qos)]))) :
    decode providerAdminPublishGroupOfferRequest m = .panic := by
  have henc : encAll str.enc l = .ok (l.map Json.str) := by
    clear hl hb
    induction l with
    | nil => rfl
    | cons x l ih => simp only [encAll, ih, Res.bind_ok, List.map_cons]; rfl
  have hgood : AllGood providerAdminPublishGroupOfferRequest.schema (l, price, expiry, qos, ()) :=
    ⟨good_slice str _ (fun _ _ => good_str _), good_u64 hp, good_i64 he, good_u64 hq, trivial⟩
  have hfs : encFields providerAdminPublishGroupOfferRequest.schema (l, price, expiry, qos, ()) =
      .ok [("cids", jsonStrs l), ("price", .num price), ("expiry", .num expiry), ("qos", .num qos)] := by
    have h1 : (slice str).enc l = .ok (jsonStrs l) := by
      show (encAll str.enc l >>= fun js => pure (Json.arr js)) = _
      rw [henc]; rfl
    show ((slice str).enc l >>= fun j => _) = _
    rw [h1]; rfl
  rw [decode_of_vals providerAdminPublishGroupOfferRequest m _ (by decide +kernel) hgood ht ⟨_, hfs, hb⟩]
  show (ids l >>= fun x => _) = _
  rw [ids_panic hs l hl]
  rfl
example : Ids.fromHex "zz".toList = none ∧ "zz".toList ∈ [Ids.toStr (exId 1), "zz".toList] := by
  constructor
  · decide +kernel
  · simp

/-- Encoding a message with any of its pointer arguments nil crashes the sender. -/
theorem C89_encode_nil (H : Hash) (pr : Protocol) :
    (∀ (nonce : Int) (gatewaysDigests : List (List (List Char))) (gatewayIDs : List Id) (paychAddr : List Char) (voucher : List Char), encode clientDHTDiscoverOfferRequest pr (none, nonce, gatewaysDigests, gatewayIDs, paychAddr, voucher) = .panic) ∧
    (∀ (nonce : Int) (gatewayIDs : List Id) (response : List Msg) (paymentRequired : Bool) (paymentChannel : List Char), encode clientDHTDiscoverOfferResponse pr (none, nonce, gatewayIDs, response, paymentRequired, paymentChannel) = .panic) ∧
    (∀ (nonce : Int) (ttl : Int) (numDHT : Int) (incrementalResults : Bool) (paychAddr : List Char) (voucher : List Char), encode clientDHTDiscoverRequest pr (none, nonce, ttl, numDHT, incrementalResults, paychAddr, voucher) = .panic) ∧
    (∀ (nonce : Int) (ttl : Int) (numDHT : Int) (incrementalResults : Bool) (paychAddr : List Char) (voucher : List Char), encode clientDHTDiscoverRequestV2 pr (none, nonce, ttl, numDHT, incrementalResults, paychAddr, voucher) = .panic) ∧
    (∀ (pieceCID : Id) (gatewayID : Id), encode clientDHTOfferAckRequest pr (none, some gatewayID) = .panic ∧ encode clientDHTOfferAckRequest pr (some pieceCID, none) = .panic) ∧
    (∀ (pieceCID : Id) (gatewayID : Id) (found : Bool) (publishDHTOfferRequest : Msg) (publishDHTOfferResponse : Msg), encode clientDHTOfferAckResponse pr (none, some gatewayID, found, some publishDHTOfferRequest, some publishDHTOfferResponse) = .panic ∧ encode clientDHTOfferAckResponse pr (some pieceCID, none, found, some publishDHTOfferRequest, some publishDHTOfferResponse) = .panic ∧ encode clientDHTOfferAckResponse pr (some pieceCID, some gatewayID, found, none, some publishDHTOfferResponse) = .panic ∧ encode clientDHTOfferAckResponse pr (some pieceCID, some gatewayID, found, some publishDHTOfferRequest, none) = .panic) ∧
    (∀ (challenge : List Char) (ttl : Int), encode clientEstablishmentRequest pr (none, challenge, ttl) = .panic) ∧
    (∀ (challenge : List Char), encode clientEstablishmentResponse pr (none, challenge) = .panic) ∧
    (∀ (nonce : Int) (ttl : Int) (offerDigests : List (List Char)) (paychAddr : List Char) (voucher : List Char), encode clientStandardDiscoverOfferRequest pr (none, nonce, ttl, offerDigests, paychAddr, voucher) = .panic) ∧
    (∀ (nonce : Int) (found : Bool) (offers : List Offer.SubOffer) (fundedPaymentChannel : List Bool) (paymentRequired : Bool) (paymentChannel : List Char), encode clientStandardDiscoverOfferResponse pr (none, nonce, found, offers, fundedPaymentChannel, paymentRequired, paymentChannel) = .panic) ∧
    (∀ (nonce : Int) (ttl : Int) (paychAddr : List Char) (voucher : List Char), encode clientStandardDiscoverRequest pr (none, nonce, ttl, paychAddr, voucher) = .panic) ∧
    (∀ (nonce : Int) (ttl : Int) (paychAddr : List Char) (voucher : List Char), encode clientStandardDiscoverRequestV2 pr (none, nonce, ttl, paychAddr, voucher) = .panic) ∧
    (∀ (nonce : Int) (found : Bool) (offers : List Offer.SubOffer) (fundedPaymentChannel : List Bool), encode clientStandardDiscoverResponse pr (none, nonce, found, offers, fundedPaymentChannel) = .panic) ∧
    (∀ (nonce : Int) (found : Bool) (offersDigests : List (List Char)) (fundedPaymentChannel : List Bool) (paymentRequired : Bool) (paymentChannel : List Char), encode clientStandardDiscoverResponseV2 pr (none, nonce, found, offersDigests, fundedPaymentChannel, paymentRequired, paymentChannel) = .panic) ∧
    (∀ (nonce : Int) (offerDigests : List (List Char)) (paychAddr : List Char) (voucher : List Char), encode gatewayDHTDiscoverOfferRequest pr (none, nonce, offerDigests, paychAddr, voucher) = .panic) ∧
    (∀ (nonce : Int) (found : Bool) (offers : List Offer.SubOffer) (fundedPaymentChannel : List Bool) (paymentRequired : Bool) (paymentChannel : List Char), encode gatewayDHTDiscoverOfferResponse pr (none, nonce, found, offers, fundedPaymentChannel, paymentRequired, paymentChannel) = .panic) ∧
    (∀ (gatewayID : Id) (pieceCID : Id) (nonce : Int) (ttl : Int) (paychAddr : List Char) (voucher : List Char), encode gatewayDHTDiscoverRequest pr (none, some pieceCID, nonce, ttl, paychAddr, voucher) = .panic ∧ encode gatewayDHTDiscoverRequest pr (some gatewayID, none, nonce, ttl, paychAddr, voucher) = .panic) ∧
    (∀ (gatewayID : Id) (pieceCID : Id) (nonce : Int) (ttl : Int) (paychAddr : List Char) (voucher : List Char), encode gatewayDHTDiscoverRequestV2 pr (none, some pieceCID, nonce, ttl, paychAddr, voucher) = .panic ∧ encode gatewayDHTDiscoverRequestV2 pr (some gatewayID, none, nonce, ttl, paychAddr, voucher) = .panic) ∧
    (∀ (nonce : Int) (found : Bool) (offers : List Offer.SubOffer) (fundedPaymentChannel : List Bool), encode gatewayDHTDiscoverResponse pr (none, nonce, found, offers, fundedPaymentChannel) = .panic) ∧
    (∀ (nonce : Int) (found : Bool) (offers : List (List Char)) (fundedPaymentChannel : List Bool) (paymentRequired : Bool) (paymentChannel : List Char), encode gatewayDHTDiscoverResponseV2 pr (none, nonce, found, offers, fundedPaymentChannel, paymentRequired, paymentChannel) = .panic) ∧
    (∀ (gatewayID : Id) (cidMin : Id) (cidMax : Id) (blockHash : List Char) (transactionReceipt : List Char) (merkleRoot : List Char) (merkleProof : Merkle.Proof), encode gatewayListDHTOfferRequest pr (none, some cidMin, some cidMax, blockHash, transactionReceipt, merkleRoot, some merkleProof) = .panic ∧ encode gatewayListDHTOfferRequest pr (some gatewayID, none, some cidMax, blockHash, transactionReceipt, merkleRoot, some merkleProof) = .panic ∧ encode gatewayListDHTOfferRequest pr (some gatewayID, some cidMin, none, blockHash, transactionReceipt, merkleRoot, some merkleProof) = .panic ∧ encode gatewayListDHTOfferRequest pr (some gatewayID, some cidMin, some cidMax, blockHash, transactionReceipt, merkleRoot, none) = .panic) ∧
    (∀ (groupCIDOfferSupported : Bool), encode gatewayNotifyProviderGroupCIDOfferSupportRequest pr (none, groupCIDOfferSupported) = .panic) ∧
    (∀ (nonce : Int) (ttl : Int), encode gatewayPingRequest pr (none, nonce, ttl) = .panic) ∧
    (encode gatewayAdminGetReputationRequest pr none = .panic) ∧
    (∀ (reputation : Int) (found : Bool), encode gatewayAdminGetReputationResponse pr (none, reputation, found) = .panic) ∧
    (∀ (nodeID : Id) (privateKey : Crypto.KeyPair) (keyVersion : Crypto.KeyVersion), encode gatewayAdminInitialiseKeyRequest pr (none, some privateKey, some keyVersion) = .panic ∧ encode gatewayAdminInitialiseKeyRequest pr (some nodeID, none, some keyVersion) = .panic ∧ encode gatewayAdminInitialiseKeyRequest pr (some nodeID, some privateKey, none) = .panic) ∧
    (∀ (nodeID : Id) (privateKey : Crypto.KeyPair) (keyVersion : Crypto.KeyVersion) (walletPrivateKey : List Char) (lotusAP : List Char) (lotusAuthToken : List Char), encode gatewayAdminInitialiseKeyRequestV2 pr (none, some privateKey, some keyVersion, walletPrivateKey, lotusAP, lotusAuthToken) = .panic ∧ encode gatewayAdminInitialiseKeyRequestV2 pr (some nodeID, none, some keyVersion, walletPrivateKey, lotusAP, lotusAuthToken) = .panic ∧ encode gatewayAdminInitialiseKeyRequestV2 pr (some nodeID, some privateKey, none, walletPrivateKey, lotusAP, lotusAuthToken) = .panic) ∧
    (∀ (reputation : Int), encode gatewayAdminSetReputationRequest pr (none, reputation) = .panic) ∧
    (∀ (reputation : Int) (found : Bool), encode gatewayAdminSetReputationResponse pr (none, reputation, found) = .panic) ∧
    (∀ (providerIDs : List Id), encode updateGatewayGroupCIDOfferSupportRequest pr (none, providerIDs) = .panic) ∧
    (∀ (nonce : Int) (offers : List Offer.CidOffer), encode (providerPublishDHTOfferRequest H) pr (none, nonce, offers) = .panic) ∧
    (∀ (providerID : Id) (nonce : Int) (offer : Offer.CidOffer), encode (providerPublishGroupOfferRequest H) pr (none, nonce, some offer) = .panic ∧ encode (providerPublishGroupOfferRequest H) pr (some providerID, nonce, none) = .panic) ∧
    (∀ (nodeID : Id) (privateKey : Crypto.KeyPair) (keyVersion : Crypto.KeyVersion), encode providerAdminInitialiseKeyRequest pr (none, some privateKey, some keyVersion) = .panic ∧ encode providerAdminInitialiseKeyRequest pr (some nodeID, none, some keyVersion) = .panic ∧ encode providerAdminInitialiseKeyRequest pr (some nodeID, some privateKey, none) = .panic) ∧
    (∀ (nodeID : Id) (privateKey : Crypto.KeyPair) (keyVersion : Crypto.KeyVersion) (walletPrivateKey : List Char) (lotusAP : List Char) (lotusAuthToken : List Char), encode providerAdminInitialiseKeyRequestV2 pr (none, some privateKey, some keyVersion, walletPrivateKey, lotusAP, lotusAuthToken) = .panic ∧ encode providerAdminInitialiseKeyRequestV2 pr (some nodeID, none, some keyVersion, walletPrivateKey, lotusAP, lotusAuthToken) = .panic ∧ encode providerAdminInitialiseKeyRequestV2 pr (some nodeID, some privateKey, none, walletPrivateKey, lotusAP, lotusAuthToken) = .panic) := by
  refine ⟨?_, ?_, ?_, ?_, ?_, ?_, ?_, ?_, ?_, ?_, ?_, ?_, ?_, ?_, ?_, ?_, ?_, ?_, ?_, ?_, ?_, ?_, ?_, ?_, ?_, ?_, ?_, ?_, ?_, ?_, ?_, ?_, ?_, ?_⟩ <;> intros <;> first | rfl | exact ⟨rfl, rfl⟩ | exact ⟨rfl, rfl, rfl⟩ | exact ⟨rfl, rfl, rfl, rfl⟩

end FcRetrieval.Codecs
