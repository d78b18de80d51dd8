import Verif.Spec.WireFormat
import Verif.Props.JsonGrammar
import Verif.Props.Codecs
import Verif.Lemmas.Gateway
/-!
# C154: what the messages look like on the wire
-/
set_option linter.unusedSimpArgs false

namespace FcRetrieval.WireFormat
open FcRetrieval.Wire
open FcRetrieval.Codecs
open FcRetrieval.Message (Msg Protocol)
open FcRetrieval.Merkle (Hash)
open FcRetrieval.Gateway (res_ok_of_bind)

/-! ## fields -/

/-- What the field is written as has the shape. -/
def Writes (f : FieldT) (s : Shape) : Prop := ∀ v j, f.enc v = .ok j → HasShape s j

theorem writes_str : Writes str .text := by intro v j h; cases h; exact ⟨_, rfl⟩
theorem writes_i64 : Writes i64 .number := by intro v j h; cases h; exact ⟨_, rfl⟩
theorem writes_i32 : Writes i32 .number := by intro v j h; cases h; exact ⟨_, rfl⟩
theorem writes_u64 : Writes u64 .number := by intro v j h; cases h; exact ⟨_, rfl⟩
theorem writes_u32 : Writes u32 .number := by intro v j h; cases h; exact ⟨_, rfl⟩
theorem writes_bool : Writes bool .flag := by intro v j h; cases h; exact ⟨_, rfl⟩
theorem writes_msg : Writes msg .message := by intro v j h; cases h; exact ⟨_, rfl, rfl⟩
theorem writes_proof : Writes proof .text := by intro v j h; cases h; exact ⟨_, rfl⟩
theorem writes_offer (H : Hash) : Writes (offer H) .offer := by
  intro v j h
  simp only [offer, Offer.marshal] at h
  split at h
  · cases h
  · cases h
    exact ⟨_, rfl, rfl⟩
theorem writes_subOffer : Writes subOffer .subOffer := by
  intro v j h
  simp only [subOffer, Offer.subMarshal] at h
  split at h
  · cases h
    exact ⟨_, rfl, rfl⟩
  · cases h

theorem encAll_shape {f : FieldT} {s : Shape} (h : Writes f s) : ∀ {l : List f.T} {js : List Json}, encAll f.enc l = .ok js → ∀ x ∈ js, HasShape s x
  | [], js, e => by cases e; intro x hx; cases hx
  | a :: l, js, e => by
    simp only [encAll] at e
    obtain ⟨j, hj, e⟩ := res_ok_of_bind e
    obtain ⟨js', hjs, e⟩ := res_ok_of_bind e
    cases e
    intro x hx
    rcases List.mem_cons.1 hx with rfl | hx
    · exact h _ _ hj
    · exact encAll_shape h hjs x hx

theorem writes_slice {f : FieldT} {s : Shape} (h : Writes f s) : Writes (slice f) (.list s) := by
  intro v j e
  simp only [slice] at e
  obtain ⟨js, hjs, e⟩ := res_ok_of_bind e
  cases e
  exact .inr ⟨js, rfl, encAll_shape h hjs⟩

/-! ## structs -/

/-- The struct has these tags, and its fields are written in these shapes. -/
def Tagged : Schema → List (String × Shape) → Prop
  | [], [] => True
  | (n, f) :: s, (n', sh) :: l => n = n' ∧ Writes f sh ∧ Tagged s l
  | _, _ => False

theorem encFields_fits : ∀ {s : Schema} {l : List (String × Shape)}, Tagged s l → ∀ {v : Vals s} {fs}, encFields s v = .ok fs → Fits fs l
  | [], [], _, _, fs, h => by cases h; exact trivial
  | (n, f) :: s, (n', sh) :: l, ht, (v, vs), fs, h => by
    obtain ⟨h1, h2, h3⟩ := ht
    simp only [encFields] at h
    obtain ⟨j, hj, h⟩ := res_ok_of_bind h
    obtain ⟨js, hjs, h⟩ := res_ok_of_bind h
    cases h
    exact ⟨h1, h2 _ _ hj, encFields_fits h3 hjs⟩
  | [], _ :: _, ht, _, _, _ => ht.elim
  | _ :: _, [], ht, _, _, _ => ht.elim

theorem decFields_heeds : ∀ {s : Schema} {l : List (String × Shape)}, Tagged s l → ∀ {fs fs' : List (String × Json)},
    (∀ x ∈ l, memberFor x.1 fs = memberFor x.1 fs') → decFields s fs = decFields s fs'
  | [], _, _, _, _, _ => rfl
  | (n, f) :: s, (n', sh) :: l, ht, fs, fs', h => by
    obtain ⟨rfl, h2, h3⟩ := ht
    simp only [decFields]
    rw [h (n, sh) (by simp), decFields_heeds h3 (fun x hx => h x (List.mem_cons_of_mem _ hx))]
  | _ :: _, [], ht, _, _, _ => ht.elim

theorem speaks {α : Type} {c : Codec α} {code : Int} {l : List (String × Shape)} (hc : c.code = code) (ht : Tagged c.schema l) : Speaks c code l := by
  refine ⟨?_, ?_⟩
  · intro pr a m h
    simp only [encode] at h
    obtain ⟨v, hv, h⟩ := res_ok_of_bind h
    obtain ⟨fs, hfs, h⟩ := res_ok_of_bind h
    cases h
    exact ⟨hc, fs, json_text_round_trip _, encFields_fits ht hfs⟩
  · intro m m' fs fs' hm h h' hf
    simp only [decode]
    rw [hm, h, h']
    simp only [decObj, Res.ofOption, Res.bind_ok]
    rw [decFields_heeds ht hf]

/-- C154: type codes, member names and shapes of the messages of the basic protocol, as sent and as read. -/
theorem C154_basic :
    Speaks invalidMessageResponse 902 [] ∧
    Speaks protocolChangeRequest 900 [("desired_version", .number)] ∧
    Speaks protocolChangeResponse 901 [("success", .flag)] := by
  refine ⟨?_, ?_, ?_⟩ <;> refine speaks rfl ?_ <;>
    (repeat' first
      | exact trivial
      | refine ⟨rfl, ?_, ?_⟩
      | with_reducible exact writes_str | with_reducible exact writes_i64 | with_reducible exact writes_bool | with_reducible exact writes_u64 | with_reducible exact writes_u32 | with_reducible exact writes_i32 | with_reducible exact writes_msg | with_reducible exact writes_proof
      | with_reducible exact writes_offer _ | with_reducible exact writes_subOffer
      | apply writes_slice)

/-- C154: type codes, member names and shapes of the messages of the client, as sent and as read. -/
theorem C154_client :
    Speaks clientDHTDiscoverOfferRequest 114 [("piece_cid", .text), ("nonce", .number), ("gateways_digests", .list (.list .text)), ("gateway_ids", .list .text), ("payment_channel_address", .text), ("voucher", .text)] ∧
    Speaks clientDHTDiscoverOfferResponse 115 [("piece_cid", .text), ("nonce", .number), ("gateway_ids", .list .text), ("response", .list .message), ("payment_required", .flag), ("payment_channel", .text)] ∧
    Speaks clientDHTDiscoverRequest 104 [("piece_cid", .text), ("nonce", .number), ("ttl", .number), ("num_dht", .number), ("incremental_results", .flag), ("payment_channel_address", .text), ("voucher", .text)] ∧
    Speaks clientDHTDiscoverRequestV2 112 [("piece_cid", .text), ("nonce", .number), ("ttl", .number), ("num_dht", .number), ("incremental_results", .flag), ("payment_channel_address", .text), ("voucher", .text)] ∧
    Speaks clientDHTDiscoverResponse 105 [("contacted_gateways", .list .text), ("response", .list .message), ("uncontactable_gateways", .list .text), ("nonce", .number), ("payment_required", .flag), ("payment_channel", .text)] ∧
    Speaks clientDHTDiscoverResponseV2 113 [("contacted_gateways", .list .text), ("response", .list .message), ("uncontactable_gateways", .list .text), ("nonce", .number), ("payment_required", .flag), ("payment_channel", .text)] ∧
    Speaks clientDHTOfferAckRequest 106 [("piece_cid", .text), ("gateway_id", .text)] ∧
    Speaks clientDHTOfferAckResponse 107 [("piece_cid", .text), ("gateway_id", .text), ("found", .flag), ("publish_dht_offer_request", .message), ("publish_dht_offer_response", .message)] ∧
    Speaks clientEstablishmentRequest 100 [("client_id", .text), ("challenge", .text), ("ttl", .number)] ∧
    Speaks clientEstablishmentResponse 101 [("gateway_id", .text), ("challenge", .text)] ∧
    Speaks clientStandardDiscoverOfferRequest 110 [("piece_cid", .text), ("nonce", .number), ("ttl", .number), ("offer_digests", .list .text), ("payment_channel_address", .text), ("voucher", .text)] ∧
    Speaks clientStandardDiscoverOfferResponse 111 [("piece_cid", .text), ("nonce", .number), ("found", .flag), ("sub_cid_offers", .list .subOffer), ("funded_payment_channel", .list .flag), ("payment_required", .flag), ("payment_channel", .text)] ∧
    Speaks clientStandardDiscoverRequest 102 [("piece_cid", .text), ("nonce", .number), ("ttl", .number), ("payment_channel_address", .text), ("voucher", .text)] ∧
    Speaks clientStandardDiscoverRequestV2 108 [("piece_cid", .text), ("nonce", .number), ("ttl", .number), ("payment_channel_address", .text), ("voucher", .text)] ∧
    Speaks clientStandardDiscoverResponse 103 [("piece_cid", .text), ("nonce", .number), ("found", .flag), ("sub_cid_offers", .list .subOffer), ("funded_payment_channel", .list .flag)] ∧
    Speaks clientStandardDiscoverResponseV2 109 [("piece_cid", .text), ("nonce", .number), ("found", .flag), ("sub_cid_offer_digests", .list .text), ("funded_payment_channel", .list .flag), ("payment_required", .flag), ("payment_channel", .text)] := by
  refine ⟨?_, ?_, ?_, ?_, ?_, ?_, ?_, ?_, ?_, ?_, ?_, ?_, ?_, ?_, ?_, ?_⟩ <;> refine speaks rfl ?_ <;>
    (repeat' first
      | exact trivial
      | refine ⟨rfl, ?_, ?_⟩
      | with_reducible exact writes_str | with_reducible exact writes_i64 | with_reducible exact writes_bool | with_reducible exact writes_u64 | with_reducible exact writes_u32 | with_reducible exact writes_i32 | with_reducible exact writes_msg | with_reducible exact writes_proof
      | with_reducible exact writes_offer _ | with_reducible exact writes_subOffer
      | apply writes_slice)

/-- C154: type codes, member names and shapes of the messages of the gateway, as sent and as read. -/
theorem C154_gateway :
    Speaks gatewayDHTDiscoverOfferRequest 209 [("piece_cid", .text), ("nonce", .number), ("offer_digests", .list .text), ("payment_channel_address", .text), ("voucher", .text)] ∧
    Speaks gatewayDHTDiscoverOfferResponse 210 [("piece_cid", .text), ("nonce", .number), ("found", .flag), ("sub_cid_offers", .list .subOffer), ("funded_payment_channel", .list .flag), ("payment_required", .flag), ("payment_channel", .text)] ∧
    Speaks gatewayDHTDiscoverRequest 203 [("gateway_id", .text), ("piece_cid", .text), ("nonce", .number), ("ttl", .number), ("payment_channel_address", .text), ("voucher", .text)] ∧
    Speaks gatewayDHTDiscoverRequestV2 207 [("gateway_id", .text), ("piece_cid", .text), ("nonce", .number), ("ttl", .number), ("payment_channel_address", .text), ("voucher", .text)] ∧
    Speaks gatewayDHTDiscoverResponse 204 [("piece_cid", .text), ("nonce", .number), ("found", .flag), ("sub_cid_offers", .list .subOffer), ("funded_payment_channel", .list .flag)] ∧
    Speaks gatewayDHTDiscoverResponseV2 208 [("piece_cid", .text), ("nonce", .number), ("found", .flag), ("sub_cid_offer_digest", .list .text), ("funded_payment_channel", .list .flag), ("payment_required", .flag), ("payment_channel", .text)] ∧
    Speaks gatewayListDHTOfferAck 202 [("published_dht_offers_ack", .list .message)] ∧
    Speaks gatewayListDHTOfferRequest 200 [("gateway_id", .text), ("cid_min", .text), ("cid_max", .text), ("block_hash", .text), ("transaction_receipt", .text), ("merkle_root", .text), ("merkle_proof", .text)] ∧
    Speaks gatewayListDHTOfferResponse 201 [("published_dht_offers", .list .message)] ∧
    Speaks gatewayNotifyProviderGroupCIDOfferSupportRequest 205 [("gateway_id", .text), ("group_cid_offer_supported", .flag)] ∧
    Speaks gatewayNotifyProviderGroupCIDOfferSupportResponse 206 [("acknowledged", .flag)] ∧
    Speaks gatewayPingRequest 205 [("gateway_id", .text), ("nonce", .number), ("ttl", .number)] ∧
    Speaks gatewayPingResponse 206 [("nonce", .number), ("isAlive", .flag)] := by
  refine ⟨?_, ?_, ?_, ?_, ?_, ?_, ?_, ?_, ?_, ?_, ?_, ?_, ?_⟩ <;> refine speaks rfl ?_ <;>
    (repeat' first
      | exact trivial
      | refine ⟨rfl, ?_, ?_⟩
      | with_reducible exact writes_str | with_reducible exact writes_i64 | with_reducible exact writes_bool | with_reducible exact writes_u64 | with_reducible exact writes_u32 | with_reducible exact writes_i32 | with_reducible exact writes_msg | with_reducible exact writes_proof
      | with_reducible exact writes_offer _ | with_reducible exact writes_subOffer
      | apply writes_slice)

/-- C154: type codes, member names and shapes of the messages of the admin of a gateway, as sent and as read. -/
theorem C154_gateway_admin :
    Speaks gatewayAdminForceRefreshRequest 406 [("refresh", .flag)] ∧
    Speaks gatewayAdminForceRefreshResponse 407 [("refreshed", .flag)] ∧
    Speaks gatewayAdminGetReputationRequest 402 [("client_id", .text)] ∧
    Speaks gatewayAdminGetReputationResponse 403 [("client_id", .text), ("reputation", .number), ("exists", .flag)] ∧
    Speaks gatewayAdminInitialiseKeyRequest 400 [("gateway_id", .text), ("private_key", .text), ("private_key_version", .number)] ∧
    Speaks gatewayAdminInitialiseKeyRequestV2 412 [("gateway_id", .text), ("private_key", .text), ("private_key_version", .number), ("wallet_private_key", .text), ("lotus_ap", .text), ("lotus_auth_token", .text)] ∧
    Speaks gatewayAdminInitialiseKeyResponse 401 [("success", .flag)] ∧
    Speaks gatewayAdminListDHTOfferRequest 410 [("refresh", .flag)] ∧
    Speaks gatewayAdminListDHTOfferResponse 411 [("refreshed", .flag)] ∧
    Speaks gatewayAdminSetReputationRequest 404 [("client_id", .text), ("reputation", .number)] ∧
    Speaks gatewayAdminSetReputationResponse 405 [("client_id", .text), ("reputation", .number), ("exists", .flag)] ∧
    Speaks updateGatewayGroupCIDOfferSupportRequest 408 [("gateway_id", .text), ("provider_ids", .list .text)] ∧
    Speaks updateGatewayGroupCIDOfferSupportResponse 409 [("success", .flag)] := by
  refine ⟨?_, ?_, ?_, ?_, ?_, ?_, ?_, ?_, ?_, ?_, ?_, ?_, ?_⟩ <;> refine speaks rfl ?_ <;>
    (repeat' first
      | exact trivial
      | refine ⟨rfl, ?_, ?_⟩
      | with_reducible exact writes_str | with_reducible exact writes_i64 | with_reducible exact writes_bool | with_reducible exact writes_u64 | with_reducible exact writes_u32 | with_reducible exact writes_i32 | with_reducible exact writes_msg | with_reducible exact writes_proof
      | with_reducible exact writes_offer _ | with_reducible exact writes_subOffer
      | apply writes_slice)

/-- C154: type codes, member names and shapes of the messages of the provider, as sent and as read. -/
theorem C154_provider (H : Hash) :
    Speaks (providerPublishDHTOfferRequest H) 302 [("provider_id", .text), ("nonce", .number), ("num_of_offers", .number), ("single_offers", .list .offer)] ∧
    Speaks providerPublishDHTOfferResponse 303 [("nonce", .number), ("signature", .text)] ∧
    Speaks (providerPublishGroupOfferRequest H) 300 [("provider_id", .text), ("nonce", .number), ("offer", .offer)] ∧
    Speaks providerPublishGroupOfferResponse 301 [("gateway_id", .text), ("digest", .text)] := by
  refine ⟨?_, ?_, ?_, ?_⟩ <;> refine speaks rfl ?_ <;>
    (repeat' first
      | exact trivial
      | refine ⟨rfl, ?_, ?_⟩
      | with_reducible exact writes_str | with_reducible exact writes_i64 | with_reducible exact writes_bool | with_reducible exact writes_u64 | with_reducible exact writes_u32 | with_reducible exact writes_i32 | with_reducible exact writes_msg | with_reducible exact writes_proof
      | with_reducible exact writes_offer _ | with_reducible exact writes_subOffer
      | apply writes_slice)

/-- C154: type codes, member names and shapes of the messages of the admin of a provider, as sent and as read. -/
theorem C154_provider_admin (H : Hash) :
    Speaks providerAdminForceRefreshRequest 508 [("refresh", .flag)] ∧
    Speaks providerAdminForceRefreshResponse 509 [("refreshed", .flag)] ∧
    Speaks providerAdminGetPublishedOfferRequest 506 [("gateway_id", .list .text)] ∧
    Speaks (providerAdminGetPublishedOfferResponse H) 507 [("exists", .flag), ("cid_offers", .list .offer)] ∧
    Speaks providerAdminInitialiseKeyRequest 500 [("provider_id", .text), ("private_key", .text), ("private_key_version", .number)] ∧
    Speaks providerAdminInitialiseKeyRequestV2 510 [("provider_id", .text), ("private_key", .text), ("private_key_version", .number), ("wallet_private_key", .text), ("lotus_ap", .text), ("lotus_auth_token", .text)] ∧
    Speaks providerAdminInitialiseKeyResponse 501 [("success", .flag)] ∧
    Speaks providerAdminPublishDHTOfferRequest 504 [("cids", .list .text), ("price", .list .number), ("expiry", .list .number), ("qos", .list .number)] ∧
    Speaks providerAdminPublishDHTOfferResponse 505 [("received", .flag)] ∧
    Speaks providerAdminPublishGroupOfferRequest 502 [("cids", .list .text), ("price", .number), ("expiry", .number), ("qos", .number)] ∧
    Speaks providerAdminPublishGroupOfferResponse 503 [("received", .flag)] := by
  refine ⟨?_, ?_, ?_, ?_, ?_, ?_, ?_, ?_, ?_, ?_, ?_⟩ <;> refine speaks rfl ?_ <;>
    (repeat' first
      | exact trivial
      | refine ⟨rfl, ?_, ?_⟩
      | with_reducible exact writes_str | with_reducible exact writes_i64 | with_reducible exact writes_bool | with_reducible exact writes_u64 | with_reducible exact writes_u32 | with_reducible exact writes_i32 | with_reducible exact writes_msg | with_reducible exact writes_proof
      | with_reducible exact writes_offer _ | with_reducible exact writes_subOffer
      | apply writes_slice)

theorem fits_names : ∀ {fs : List (String × Json)} {l : List (String × Shape)}, Fits fs l → fs.map Prod.fst = l.map Prod.fst
  | [], [], _ => rfl
  | [], _ :: _, h => h.elim
  | _ :: _, [], h => h.elim
  | (n, j) :: fs, (n', s) :: l, h => by
    obtain ⟨h1, -, h3⟩ := h
    simp only [List.map_cons]
    rw [fits_names h3, h1]

/-- C154: a peer may lay a message out in its own way: with the members in another order, their names in other letter case, with others between them and with any JSON library, it means the same. -/
theorem C154_layout {α : Type} {c : Codec α} {code : Int} {members : List (String × Shape)} (hc : Speaks c code members) {pr : Protocol} {a : α} {m : Msg}
    {fs : List (String × Json)} (he : encode c pr a = .ok m) (hfs : Message.parseText (m.body.getD []) = some (.obj fs)) (hnd : Distinct (members.map Prod.fst))
    {gs : List (String × Json)} (hsub : ∀ x ∈ fs, HasMember gs x) {s : List Char} (hs : JsonGrammar.Whole false (.obj gs) s) :
    decode c { m with body := some (utf8Bytes s) } = decode c m := by
  obtain ⟨-, fs', h1, h2⟩ := hc.1 pr a m he
  rw [hfs] at h1
  cases h1
  have hn := fits_names h2
  refine hc.2 _ _ gs fs rfl ?_ hfs ?_
  · show (utf8Text (utf8Bytes s)).bind parseJson = _
    rw [utf8Text_bytes]
    exact JsonGrammar.C153_read hs
  · intro x hx
    have : x.1 ∈ fs.map Prod.fst := by rw [hn]; exact List.mem_map_of_mem hx
    obtain ⟨⟨k, j⟩, hj, hk⟩ := List.mem_map.1 this
    dsimp only at hk
    subst hk
    rw [memberFor_carries (hsub _ hj), memberFor_eq hj (by rw [hn]; exact hnd)]

/-- An establishment request with its members in another order and one more, as another client may write it, is read all the same. -/
example : ∃ m fs, encode clientEstablishmentRequest Message.defaultProtocol (some (Merkle.exId 1), "a\"b".toList, -7) = .ok m ∧
    Message.parseText (m.body.getD []) = some (.obj fs) ∧ fs.map Prod.fst = ["client_id", "challenge", "ttl"] ∧
    decode clientEstablishmentRequest { m with body := some (utf8Bytes (render (.obj (("comment", .null) :: fs.reverse)))) } = .ok (some (Merkle.exId 1), "a\"b".toList, -7) := by
  obtain ⟨m, hm, h1, h2, h3, h4⟩ := C30_clientEstablishmentRequest _ defaultProtocolOk (some (Merkle.exId 1)) "a\"b".toList (-7) (exIdOk 1) (⟨by decide, by decide⟩)
  have hs : Speaks clientEstablishmentRequest 100 [("client_id", .text), ("challenge", .text), ("ttl", .number)] := by
    simp only [C154_client]
  obtain ⟨-, fs, g1, g2⟩ := hs.1 _ _ _ hm
  have hn := fits_names g2
  refine ⟨m, fs, hm, g1, hn, ?_⟩
  rw [C154_layout hs hm g1 (by decide) (fun x hx => carries_mem (by simp only [List.mem_cons, List.mem_reverse]; exact .inr hx)
      (by simp only [List.map_cons, List.map_reverse]; rw [hn]; decide +kernel)) (JsonGrammar.C153_written _)]
  have := (h4 m.signature).2
  exact this

end FcRetrieval.WireFormat
