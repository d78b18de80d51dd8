{"claims": [
{"property": "C01", "status": "proved", "theorems": ["FcRetrieval.Ring.C01_insert_history", "FcRetrieval.Ring.C01_insert_step", "FcRetrieval.Ring.C01_insert_invalid", "FcRetrieval.Ring.C01_valid_meaning", "FcRetrieval.Ring.C01_value_meaning"], "note": "All histories of Insert from CreateRing."},
{"property": "C02", "status": "partial", "theorems": ["FcRetrieval.Ring.C02_remove_partial", "FcRetrieval.Ring.C02_remove_invalid", "FcRetrieval.Ring.C02_smallest_stays", "FcRetrieval.Ring.C02_single_lost", "FcRetrieval.Ring.C02_remove_refuted"], "note": "The code violates the property when the smallest of three or more is removed and when a ring of one is asked to remove another identifier; both proved, all other cases proved correct."},
{"property": "C03", "status": "proved", "theorems": ["FcRetrieval.Ring.C03_getClosest_nearest", "FcRetrieval.Ring.C03_target_included"], "note": "Targets spelled in another letter case than a stored equal identifier are excluded by SameSpelling."},
{"property": "C04", "status": "partial", "theorems": ["FcRetrieval.Ring.C04_getClosest_partial", "FcRetrieval.Ring.C04_getWithinRange_partial", "FcRetrieval.Ring.C04_getClosest_leaves_target", "FcRetrieval.Ring.C04_queries_pure_refuted"], "note": "The code leaves a queried identifier behind when it is below all stored ones; proved, and proved harmless otherwise."},
{"property": "C05", "status": "proved", "theorems": ["FcRetrieval.Ring.C05_getWithinRange_arc", "FcRetrieval.Ring.C05_arc_meaning", "FcRetrieval.Ring.C05_arc_order"], "note": ""},
{"property": "C06", "status": "partial", "theorems": ["FcRetrieval.Ring.C06_exclude_partial", "FcRetrieval.Ring.C06_exclude_returned", "FcRetrieval.Ring.C06_exclude_refuted"], "note": "The code can return the excluded identifier when it is the smallest of three or more; proved, and proved right in all other cases."},
{"property": "C07", "status": "proved", "theorems": ["FcRetrieval.Ring.C07_dist_range", "FcRetrieval.Ring.C07_dist_self", "FcRetrieval.Ring.C07_dist_leads", "FcRetrieval.Ring.C07_dist_roundtrip", "FcRetrieval.Ring.C07_dist_sum"], "note": ""},
{"property": "C08", "status": "proved", "theorems": ["FcRetrieval.Ids.C08_position_meaning", "FcRetrieval.Ids.C08_from_bytes", "FcRetrieval.Ids.C08_from_big", "FcRetrieval.Ids.C08_from_hex", "FcRetrieval.Ids.C08_to_string_shape", "FcRetrieval.Ids.C08_constructors_proper", "FcRetrieval.Ids.C08_round_trip", "FcRetrieval.Ids.C08_equal_iff"], "note": ""},
{"property": "C09", "status": "proved", "theorems": ["FcRetrieval.Ids.C09_json_round_trip", "FcRetrieval.Ids.C09_unmarshal_exact", "FcRetrieval.Ids.C09_base64_round_trip"], "note": ""},
{"property": "C10", "status": "proved", "theorems": ["FcRetrieval.Ids.C10_sort_clockwise", "FcRetrieval.Ids.C10_two_blocks", "FcRetrieval.Ids.C10_unique"], "note": ""},
{"property": "C11", "status": "proved", "theorems": ["FcRetrieval.Ids.C11_shorter_way", "FcRetrieval.Ids.C11_metric", "FcRetrieval.Ids.C11_triangle"], "note": ""},
{"property": "C12", "status": "proved", "theorems": ["FcRetrieval.Merkle.C12_root_exists", "FcRetrieval.Merkle.C12_root_value", "FcRetrieval.Merkle.C12_generated_proof_verifies", "FcRetrieval.Merkle.C12_root_ignores_repeated_last"], "note": "For every hash function and every non-empty list of 32-byte contents."},
{"property": "C13", "status": "partial", "theorems": ["FcRetrieval.Merkle.C13_accepted_partial", "FcRetrieval.Merkle.C13_sound_for_full_length_partial", "FcRetrieval.Merkle.C13_tree_node_passes_as_content_refuted", "FcRetrieval.Merkle.C13_inner_node_passes_refuted", "FcRetrieval.Merkle.C13_sound_refuted"], "note": "False as stated: leaves and inner nodes are not told apart, so the root (and every inner node) verifies as a content. Proved: what an accepted proof shows, and soundness for proofs of full length, under a no-collision hypothesis on the strings actually hashed."},
{"property": "C14", "status": "partial", "theorems": ["FcRetrieval.Merkle.C14_missing_content_rejected_partial", "FcRetrieval.Merkle.C14_root_accepted_refuted"], "note": "Holds unless the missing content equals the root."},
{"property": "C15", "status": "proved", "theorems": ["FcRetrieval.Merkle.C15_round_trip", "FcRetrieval.Merkle.C15_decode_never_panics", "FcRetrieval.Merkle.C15_decodes_iff"], "note": "Texts of the two parts shorter than 2^32 bytes."},
{"property": "C16", "status": "proved", "theorems": ["FcRetrieval.Offer.C16_preimage_injective", "FcRetrieval.Offer.C16_digest_identifies", "FcRetrieval.Offer.C16_signature_not_in_digest", "FcRetrieval.Offer.C16_digest_text_round_trip", "FcRetrieval.Offer.C16_digest_text_injective"], "note": "Identifiers of 32 bytes, 64-bit fields. Decoding malformed digest text is not modelled."},
{"property": "C17", "status": "proved", "theorems": ["FcRetrieval.Offer.C17_signed_bytes_injective", "FcRetrieval.Offer.C17_verify_iff", "FcRetrieval.Offer.C17_signed_verifies", "FcRetrieval.Offer.C17_signature_binds", "FcRetrieval.Offer.C17_price_change_rejected", "FcRetrieval.Offer.C17_only_signed_terms_matter"], "note": "Signature scheme as hypotheses Correct and Binding; no collision on the two texts compared."},
{"property": "C18", "status": "proved", "theorems": ["FcRetrieval.Offer.C18_sub_offer_verifies", "FcRetrieval.Offer.C18_signed_sub_offer_verifies", "FcRetrieval.Offer.C18_foreign_content_rejected", "FcRetrieval.Offer.C18_new_offer"], "note": ""},
{"property": "C19", "status": "proved", "theorems": ["FcRetrieval.Offer.C19_offer_round_trip", "FcRetrieval.Offer.C19_offer_text_round_trip", "FcRetrieval.Offer.C19_digest_kept", "FcRetrieval.Offer.C19_sub_offer_round_trip", "FcRetrieval.Offer.C19_decoded_offer_valid"], "note": ""},
{"property": "C20", "status": "proved", "theorems": ["FcRetrieval.OfferMgr.C20_no_expired", "FcRetrieval.OfferMgr.C20_stays_expired"], "note": "every history of calls that return; clock between 1970 and 2^62 s"},
{"property": "C21", "status": "proved", "theorems": ["FcRetrieval.OfferMgr.C21_refines", "FcRetrieval.OfferMgr.C21_returns", "FcRetrieval.OfferMgr.C21_getOffers_exact", "FcRetrieval.OfferMgr.C21_getGroupOffers_exact", "FcRetrieval.OfferMgr.C21_getDhtOffers_exact"], "note": "sequential histories; assumes the digest hash does not collide on the offers of the history; offers identified by their terms (provider, CIDs, price, expiry, qos), which is what the digest covers"},
{"property": "C22", "status": "proved", "theorems": ["FcRetrieval.OfferMgr.C22_group_again", "FcRetrieval.OfferMgr.C22_dht_again", "FcRetrieval.OfferMgr.C22_kinds", "FcRetrieval.OfferMgr.C22_expired_refused"], "note": "as C21"},
{"property": "C23", "status": "partial", "theorems": ["FcRetrieval.OfferMgr.Conc.C23_partial", "FcRetrieval.OfferMgr.Conc.C23_lost_refuted", "FcRetrieval.OfferMgr.Conc.C23_lookup_crash_refuted", "FcRetrieval.OfferMgr.Conc.C23_by_digest_refuted", "FcRetrieval.OfferMgr.Conc.C23_found_partial", "FcRetrieval.OfferMgr.Conc.C23_digest_found_partial"], "note": "Interleaving model of one storage. Proved for every schedule of any number of calls that do not meet on a CID without entry, while the offers being added do not expire; the full claim is refuted by three schedules (lost addition, crashing lookup, unlocked iteration). Proved for every schedule of any calls: a lookup that returns answers only offers that were given to an addition, are for its CID and had not expired at some moment of the lookup; a lookup by digest only an offer with that digest."},
{"property": "C24", "status": "partial", "theorems": ["FcRetrieval.OfferMgr.C24_range_partial", "FcRetrieval.OfferMgr.C24_range_refuted", "FcRetrieval.OfferMgr.C24_missed_refuted", "FcRetrieval.OfferMgr.C24_equal_bounds_refuted", "FcRetrieval.OfferMgr.C21_returns"], "note": "proved for histories in which no range query lies below all CIDs and bounds differ; false otherwise: witnesses where out-of-range offers are returned, offers are missed, or the call crashes"},
{"property": "C25", "status": "proved", "theorems": ["FcRetrieval.OfferMgr.C25_by_digest", "FcRetrieval.OfferMgr.C25_unknown_digest"], "note": "an accepted offer that has expired may have been dropped, so \"found\" is proved for unexpired offers"},
{"property": "C26", "status": "partial", "theorems": ["FcRetrieval.SqlOffer.C26_stored", "FcRetrieval.SqlOffer.C26_add", "FcRetrieval.SqlOffer.C26_by_cid", "FcRetrieval.SqlOffer.C26_by_cid_partial", "FcRetrieval.SqlOffer.C26_range", "FcRetrieval.SqlOffer.C26_by_digest", "FcRetrieval.SqlOffer.C26_again", "FcRetrieval.SqlOffer.C26_time_zone_refuted", "FcRetrieval.SqlOffer.C26_far_expiry_refuted", "FcRetrieval.SqlOffer.C26_repeated_content_refuted"], "note": "Exact results of all lookups after any history of adds, for any time zone. As stated (offers listed exactly until they expire, once each) it is false: the time comparison is shifted by the host's offset from UTC, expiries after the year 9999 are never listed, an offer naming a content twice is listed twice. C26_by_cid_partial is the intended statement on a UTC host for offers without repeated contents that expire before the year 10000."},
{"property": "C27", "status": "proved", "theorems": ["FcRetrieval.Message.C27_wire_round_trip", "FcRetrieval.Message.C27_read_total", "FcRetrieval.Message.C27_signed_bytes", "FcRetrieval.Message.C27_verify_iff", "FcRetrieval.Message.C27_signed_verifies", "FcRetrieval.Message.C27_sent_verifies", "FcRetrieval.Message.C27_signature_binds", "FcRetrieval.Message.C27_modified_rejected", "FcRetrieval.Message.C27_unsigned_rejected"], "note": "the signature scheme is a parameter with correctness and binding as hypotheses; JSON bytes modelled exactly"},
{"property": "C28", "status": "partial", "theorems": ["FcRetrieval.Message.C28_refuted", "FcRetrieval.Message.C28_partial"], "note": "false: a failed verification erases the signature of the message; exact behaviour of every sequence of verifications proved"},
{"property": "C29", "status": "partial", "theorems": ["FcRetrieval.Codecs.C29_names", "FcRetrieval.Codecs.C29_codes_partial", "FcRetrieval.Codecs.C29_one_decoder_partial", "FcRetrieval.Codecs.C29_refuted"], "note": "false for 205 and 206, which pings and group-support notifications share; all other codes are unambiguous"},
{"property": "C30", "status": "partial", "theorems": ["FcRetrieval.Codecs.C30_invalidMessageResponse", "FcRetrieval.Codecs.C30_protocolChangeRequest", "FcRetrieval.Codecs.C30_protocolChangeResponse", "FcRetrieval.Codecs.C30_clientDHTDiscoverOfferRequest", "FcRetrieval.Codecs.C30_clientDHTDiscoverOfferResponse", "FcRetrieval.Codecs.C30_clientDHTDiscoverRequest", "FcRetrieval.Codecs.C30_clientDHTDiscoverRequestV2", "FcRetrieval.Codecs.C30_clientDHTDiscoverResponse", "FcRetrieval.Codecs.C30_clientDHTDiscoverResponseV2", "FcRetrieval.Codecs.C30_clientDHTOfferAckRequest", "FcRetrieval.Codecs.C30_clientDHTOfferAckResponse", "FcRetrieval.Codecs.C30_clientEstablishmentRequest", "FcRetrieval.Codecs.C30_clientEstablishmentResponse", "FcRetrieval.Codecs.C30_clientStandardDiscoverOfferRequest", "FcRetrieval.Codecs.C30_clientStandardDiscoverOfferResponse", "FcRetrieval.Codecs.C30_clientStandardDiscoverRequest", "FcRetrieval.Codecs.C30_clientStandardDiscoverRequestV2", "FcRetrieval.Codecs.C30_clientStandardDiscoverResponse", "FcRetrieval.Codecs.C30_clientStandardDiscoverResponseV2", "FcRetrieval.Codecs.C30_gatewayDHTDiscoverOfferRequest", "FcRetrieval.Codecs.C30_gatewayDHTDiscoverOfferResponse", "FcRetrieval.Codecs.C30_gatewayDHTDiscoverRequest", "FcRetrieval.Codecs.C30_gatewayDHTDiscoverRequestV2", "FcRetrieval.Codecs.C30_gatewayDHTDiscoverResponse", "FcRetrieval.Codecs.C30_gatewayDHTDiscoverResponseV2", "FcRetrieval.Codecs.C30_gatewayListDHTOfferAck", "FcRetrieval.Codecs.C30_gatewayListDHTOfferRequest", "FcRetrieval.Codecs.C30_gatewayListDHTOfferResponse", "FcRetrieval.Codecs.C30_gatewayNotifyProviderGroupCIDOfferSupportRequest", "FcRetrieval.Codecs.C30_gatewayNotifyProviderGroupCIDOfferSupportResponse_partial", "FcRetrieval.Codecs.C30_gatewayPingRequest", "FcRetrieval.Codecs.C30_gatewayPingResponse_partial", "FcRetrieval.Codecs.C30_gatewayAdminForceRefreshRequest", "FcRetrieval.Codecs.C30_gatewayAdminForceRefreshResponse", "FcRetrieval.Codecs.C30_gatewayAdminGetReputationRequest", "FcRetrieval.Codecs.C30_gatewayAdminGetReputationResponse", "FcRetrieval.Codecs.C30_gatewayAdminInitialiseKeyRequest", "FcRetrieval.Codecs.C30_gatewayAdminInitialiseKeyRequestV2", "FcRetrieval.Codecs.C30_gatewayAdminInitialiseKeyResponse", "FcRetrieval.Codecs.C30_gatewayAdminListDHTOfferRequest", "FcRetrieval.Codecs.C30_gatewayAdminListDHTOfferResponse", "FcRetrieval.Codecs.C30_gatewayAdminSetReputationRequest", "FcRetrieval.Codecs.C30_gatewayAdminSetReputationResponse", "FcRetrieval.Codecs.C30_updateGatewayGroupCIDOfferSupportRequest", "FcRetrieval.Codecs.C30_updateGatewayGroupCIDOfferSupportResponse", "FcRetrieval.Codecs.C30_providerPublishDHTOfferRequest", "FcRetrieval.Codecs.C30_providerPublishDHTOfferResponse", "FcRetrieval.Codecs.C30_providerPublishGroupOfferRequest", "FcRetrieval.Codecs.C30_providerPublishGroupOfferResponse", "FcRetrieval.Codecs.C30_providerAdminForceRefreshRequest", "FcRetrieval.Codecs.C30_providerAdminForceRefreshResponse", "FcRetrieval.Codecs.C30_providerAdminGetPublishedOfferRequest", "FcRetrieval.Codecs.C30_providerAdminGetPublishedOfferResponse", "FcRetrieval.Codecs.C30_providerAdminInitialiseKeyRequest", "FcRetrieval.Codecs.C30_providerAdminInitialiseKeyRequestV2", "FcRetrieval.Codecs.C30_providerAdminInitialiseKeyResponse", "FcRetrieval.Codecs.C30_providerAdminPublishDHTOfferRequest", "FcRetrieval.Codecs.C30_providerAdminPublishDHTOfferResponse", "FcRetrieval.Codecs.C30_providerAdminPublishGroupOfferRequest", "FcRetrieval.Codecs.C30_providerAdminPublishGroupOfferResponse", "FcRetrieval.Codecs.C30_refuted", "FcRetrieval.Codecs.C30_group_offers_refused", "FcRetrieval.Codecs.C30_wrong_kind"], "note": "58 of the 60 kinds round trip; the two acknowledgements are decoded to true whatever was sent"},
{"property": "C31", "status": "proved", "theorems": ["FcRetrieval.Tcp.C31_delivered", "FcRetrieval.Tcp.C31_truncated", "FcRetrieval.Tcp.C31_only_what_was_sent"], "note": "all chunkings, all cut points; messages whose encoding is below 2^32 bytes"},
{"property": "C32", "status": "partial", "theorems": ["FcRetrieval.Tcp.C32_refuted", "FcRetrieval.Tcp.C32_partial"], "note": "false: a fresh bufio.Reader per message drops what it has buffered; holds when no chunk carries bytes of two messages"},
{"property": "C33", "status": "proved", "theorems": ["FcRetrieval.Crypto.C33_key_version_round_trip", "FcRetrieval.Crypto.C33_key_version_decode", "FcRetrieval.Crypto.C33_next_version", "FcRetrieval.Crypto.C33_private_key_round_trip", "FcRetrieval.Crypto.C33_private_key_decode", "FcRetrieval.Crypto.C33_public_key_round_trip", "FcRetrieval.Crypto.C33_public_key_decode"], "note": ""},
{"property": "C34", "status": "proved", "theorems": ["FcRetrieval.Crypto.C34_version_carried", "FcRetrieval.Crypto.C34_signed_verifies", "FcRetrieval.Crypto.C34_no_other_message", "FcRetrieval.Crypto.C34_verify_errors"], "note": "Correctness and binding of the signature primitive are hypotheses."},
{"property": "C35", "status": "partial", "theorems": ["FcRetrieval.Payment.C35_promised_le_funded_partial", "FcRetrieval.Payment.C35_pay_refuses_partial", "FcRetrieval.Payment.C35_pay_issues_partial", "FcRetrieval.BigInt.C166_promised_partial", "FcRetrieval.BigInt.C35_shared_refuted", "FcRetrieval.BigInt.C35_shared_short_refuted"], "note": "False for amounts passed as numbers whose memory has room to spare, such as 10 FIL and more in the settings: after three top-ups of two recipients the payer signs for twice what was sent (C35_shared_refuted), or cannot spend it (C35_shared_short_refuted); see C166. With plain numbers it holds for all sequential histories (non-negative amounts for the bound, any amounts for the refusal, see C80), and so it does for numbers without room (C166_promised_partial)."},
{"property": "C36", "status": "proved", "theorems": ["FcRetrieval.Payment.C36_cumulative", "FcRetrieval.Payment.C36_voucher_fields", "FcRetrieval.Payment.C36_one_channel"], "note": "Nonces are uint64 and wrap."},
{"property": "C37", "status": "proved", "theorems": ["FcRetrieval.Payment.C37_credited_is_highest", "FcRetrieval.Payment.C37_replay_rejected", "FcRetrieval.Payment.C37_within_chain_balance"], "note": "All sequential histories with adversarial vouchers and chain views."},
{"property": "C38", "status": "proved", "theorems": ["FcRetrieval.Payment.C38_payee_credits_what_was_paid"], "note": "Needs only that signatures made verify."},
{"property": "C39", "status": "partial", "theorems": ["FcRetrieval.Payment.C39_credited_once_partial", "FcRetrieval.Payment.C39_double_credit_refuted"], "note": "The code credits twice when two calls race on a channel not known yet; proved safe when the channel is known."},
{"property": "C40", "status": "partial", "theorems": ["FcRetrieval.Payment.C40_balance_is_sum_partial", "FcRetrieval.Payment.C40_lost_topup_refuted"], "note": "The code loses a top-up when two first top-ups race; proved exact when the channel exists."},
{"property": "C41", "status": "partial", "theorems": ["FcRetrieval.RegLocks.C41_calls_complete_partial", "FcRetrieval.RegLocks.C41_writers_exclude", "FcRetrieval.RegLocks.C41_never_again_refuted"], "note": "False as stated: a GetProvider miss keeps the read lock on the provider table, so no later writer of that table (a provider refresh, shutdown) ever completes. Proved: calls other than such a miss and the CID range complete in every schedule; writers exclude everybody else."},
{"property": "C42", "status": "partial", "theorems": ["FcRetrieval.RegLocks.C42_range_completes_partial", "FcRetrieval.RegLocks.C42_deadlock_refuted"], "note": "False: the range lookup takes the ring and gateway read locks again while holding them, and a writer announcing itself in between deadlocks both for ever. Proved: completes in every schedule in which no writer of those two locks runs beside it."},
{"property": "C43", "status": "partial", "theorems": ["FcRetrieval.RegMgr.C43_latest_partial", "FcRetrieval.RegMgr.C43_lookup_refreshes_partial", "FcRetrieval.RegMgr.C43_ring_agrees_partial", "FcRetrieval.RegMgr.C43_follows_register_partial", "FcRetrieval.RegMgr.C43_malformed_refuted", "FcRetrieval.RegMgr.C43_lookup_names_asked", "FcRetrieval.RegMgr.C43_upper_case_refuted"], "note": "Tables hold the last reported record for every history; ring agrees when identifiers are canonical. Refuted for malformed and upper-case identifiers."},
{"property": "C44", "status": "partial", "theorems": ["FcRetrieval.RegMgr.C44_nearest_partial", "FcRetrieval.RegMgr.C44_excluded_partial", "FcRetrieval.RegMgr.C44_few_refuted", "FcRetrieval.RegMgr.C44_excluded_refuted", "FcRetrieval.RegMgr.C44_cid_left_behind_refuted", "FcRetrieval.RegMgr.C44_spoiled_refuted", "FcRetrieval.RegMgr.C44_negative_refuted", "FcRetrieval.RegMgr.C44_no_discovery_refuted"], "note": "Nearest, at most 16, excluded not returned, when there are enough gateways and the excluded one is not the smallest; the other cases are refuted."},
{"property": "C45", "status": "partial", "theorems": ["FcRetrieval.RegRefresh.C45_refreshed_partial", "FcRetrieval.RegRefresh.C45_answer_taken", "FcRetrieval.RegRefresh.C45_progress_partial", "FcRetrieval.RegRefresh.C45_overlap_refuted", "FcRetrieval.RegRefresh.C45_refreshed_refuted", "FcRetrieval.RegRefresh.C45_stopped_refuted"], "note": "False in general: requests and answers share one channel, so overlapping callers take each other's requests for answers; callers caught by a shutdown wait for ever. Proved: for calls that do not overlap, and that the routine is never left with an answer nobody takes and every call can return unless the routine has been stopped."},
{"property": "C46", "status": "partial", "theorems": ["FcRetrieval.Pool.C46_refuted", "FcRetrieval.Pool.C46_removes_other_refuted", "FcRetrieval.Pool.C46_pool_partial", "FcRetrieval.Pool.C46_no_leak_partial", "FcRetrieval.Pool.C46_surplus_closed_partial", "FcRetrieval.Pool.C46_exclusive_partial", "FcRetrieval.Pool.C46_not_cut_partial", "FcRetrieval.Pool.C46_reuse_partial"], "note": "one pooled connection per node, surplus closed, none lost, none closed twice or while in use, for all interleavings; false: a request can be handed a connection that another failing request then closes, and a failing request can remove a newer healthy connection"},
{"property": "C47", "status": "proved", "theorems": ["FcRetrieval.P2P.C47_table", "FcRetrieval.P2P.C47_only", "FcRetrieval.P2P.C47_dispatched", "FcRetrieval.P2P.C47_unknown", "FcRetrieval.P2P.C47_invalid_reply", "FcRetrieval.P2P.C47_served", "FcRetrieval.P2P.C47_http", "FcRetrieval.P2P.C47_http_only", "FcRetrieval.P2P.C47_once", "FcRetrieval.P2P.C47_closed"], "note": "TCP and HTTP servers. C47_once: a server starts once and a second start changes nothing; C47_closed: a connection that was lost, unreadable or whose handler failed is served no further."},
{"property": "C48", "status": "proved", "theorems": ["FcRetrieval.Reputation.C48_history", "FcRetrieval.Reputation.C48_range", "FcRetrieval.Reputation.C48_always_in_range", "FcRetrieval.Reputation.C48_direction", "FcRetrieval.Reputation.C48_panics", "FcRetrieval.Reputation.C48_wraps_refuted"], "note": "Exact value after every history; range; direction; panics exactly for unknown clients. int64 addition wraps: shown harmless unless the administrator sets a value at the ends of int64."},
{"property": "C49", "status": "partial", "theorems": ["FcRetrieval.Gateway.C49_standardV2_partial", "FcRetrieval.Gateway.C49_standardOffer_partial", "FcRetrieval.Gateway.C49_standardV2_served", "FcRetrieval.Gateway.C49_standardOffer_served", "FcRetrieval.Gateway.C49_standard_refuted", "FcRetrieval.Gateway.C49_peerDhtV2_refuted", "FcRetrieval.Gateway.C49_peerDhtV2_served", "FcRetrieval.Gateway.C49_peerDhtV2_partial", "FcRetrieval.Gateway.C49_peerDhtOffer_refuted"], "note": "True of the two standard discovery requests of version 2 (an answer with digests or offers implies that the voucher is credited with at least the price, and paid requests are answered with exactly the stored offers). False of the unversioned handlers, which are free, and of the gateway-to-gateway handlers, which answer with digests and offers before or without looking at the amount."},
{"property": "C50", "status": "partial", "theorems": ["FcRetrieval.Gateway.C50_search_price", "FcRetrieval.Gateway.C50_offer_price_partial", "FcRetrieval.Gateway.C50_offer_price_step", "FcRetrieval.Gateway.C50_refuted", "FcRetrieval.Gateway.C50_free_refuted", "FcRetrieval.GatewayLife.C50_life_partial"], "note": "The price of a search is constant. The price of an offer is multiplied by the number of digests of every gateway-to-gateway offer request (and becomes zero for a request without digests); it is constant in histories without such requests. Over a whole life of a gateway, set up any number of times (C50_life_partial): the search price is always the one it started with, and so is the offer price unless another gateway asks for an offer in the DHT."},
{"property": "C51", "status": "partial", "theorems": ["FcRetrieval.Gateway.C51_peerDht", "FcRetrieval.Gateway.C51_peerDhtV2", "FcRetrieval.Gateway.C51_peerDht_served", "FcRetrieval.Gateway.C51_client_expired", "FcRetrieval.Gateway.C51_peerDhtOffer_refuted"], "note": "True except for gateway-to-gateway offer requests, which are neither authenticated nor limited in time."},
{"property": "C52", "status": "proved", "theorems": ["FcRetrieval.Gateway.C52_rows", "FcRetrieval.Gateway.C52_list", "FcRetrieval.Gateway.C52_publishDht_served", "FcRetrieval.Gateway.C52_publishGroup_served", "FcRetrieval.Gateway.C52_lookup", "FcRetrieval.Gateway.C52_lookup_digest"], "note": "Every row added to the store by a publish request, or by a list the gateway asked for, is that of an offer signed under the registered key of the authenticated provider; over every history a lookup answers only such offers. Hash and signature schemes are parameters."},
{"property": "C53", "status": "proved", "theorems": ["FcRetrieval.Provider.C53_listing", "FcRetrieval.Provider.C53_count"], "note": "For every history: the messages listed carry the offers in range in order, at most 50 each, none empty unless there is nothing to list; at most n/50+1 messages."},
{"property": "C54", "status": "partial", "theorems": ["FcRetrieval.Provider.C54_refuted", "FcRetrieval.Provider.C54_partial"], "note": "False for batches: the loop variable is stored by address, so all CIDs of a batch get the offer for the last. C54_partial: batches of one, until expiry, whatever happens in between."},
{"property": "C55", "status": "partial", "theorems": ["FcRetrieval.Provider.C55_genuine", "FcRetrieval.Provider.C55_partial", "FcRetrieval.Provider.C55_refuted"], "note": "False for acknowledgements given when a gateway lists the offers: for a CID that nobody acknowledged before the provider crashes, and has not recorded the acknowledgement (C55_refuted). C55_genuine: what is shown is an acknowledgement that the gateway gave for a request with an offer for the CID. C55_partial: acknowledgements of published offers are recorded for good."},
{"property": "C56", "status": "partial", "theorems": ["FcRetrieval.Provider.C56_refuted", "FcRetrieval.Provider.C56_never_refuted"], "note": "False: the list is updated in a copy of the slice, so it is empty for ever although the answer says true."},
{"property": "C57", "status": "partial", "theorems": ["FcRetrieval.Provider.C57_answer", "FcRetrieval.Provider.C57_genuine", "FcRetrieval.Provider.C57_complete_partial", "FcRetrieval.Provider.C57_listing_refuted"], "note": "Exact for published offers; an offer that a gateway got by listing and acknowledged is not listed for it."},
{"property": "C58", "status": "partial", "theorems": ["FcRetrieval.Client.C58_standard_refuted", "FcRetrieval.Client.C58_dht_partial", "FcRetrieval.Client.C58_standardV2_partial", "FcRetrieval.Client.C58_dhtV2_refuted", "FcRetrieval.Client.C58_dhtV2_witness"], "note": "Holds of FindOffersDHTDiscovery and FindOffersStandardDiscoveryV2. FindOffersStandardDiscovery verifies and then returns everything received; FindOffersDHTDiscoveryV2 does not verify. Both refuted for all such answers."},
{"property": "C59", "status": "partial", "theorems": ["FcRetrieval.Client.C59_standard_partial", "FcRetrieval.Client.C59_zero_refuted", "FcRetrieval.Client.C59_dht_partial", "FcRetrieval.Client.C59_dht_refuted"], "note": "Payments and requests respect the limit in both second versions; what is returned does for a standard discovery with a limit of at least 1. With limit 0 there is no limit, and what DHT discovery returns is not limited: refuted."},
{"property": "C60", "status": "partial", "theorems": ["FcRetrieval.Client.C60_refuted", "FcRetrieval.Client.C60_wrong", "FcRetrieval.Client.C60_partial"], "note": "Address of the loop variable: all entries show the offers of the last gateway. Refuted for all results; the keys, and the result when one gateway answered, are right."},
{"property": "C61", "status": "proved", "theorems": ["FcRetrieval.Client.C61_active", "FcRetrieval.Client.C61_add", "FcRetrieval.Client.C61_remove", "FcRetrieval.Client.C61_remove_all", "FcRetrieval.Client.C61_activate", "FcRetrieval.Client.C61_deactivate", "FcRetrieval.Client.C61_deactivate_all", "FcRetrieval.Client.C61_counts", "FcRetrieval.Client.C61_honest"], "note": "Sequential histories of calls, as the property says."},
{"property": "C62", "status": "proved", "theorems": ["FcRetrieval.Payment.C62_topupAndPay", "FcRetrieval.Payment.C62_topupAndPay_succeeds"], "note": "The gateway's copy of the function is textually the same."},
{"property": "C63", "status": "proved", "theorems": ["FcRetrieval.Client.C63_sound", "FcRetrieval.Client.C63_accepts", "FcRetrieval.Client.C63_replay", "FcRetrieval.Client.C63_honest"], "note": "C63_honest composes the client with the gateway handler."},
{"property": "C64", "status": "proved", "theorems": ["FcRetrieval.Client.C64", "FcRetrieval.Client.C64_not_found", "FcRetrieval.Client.C64_unsigned", "FcRetrieval.Client.C64_honest_partial", "FcRetrieval.Gateway.C64_listed_refuted"], "note": "An acknowledgement is reported exactly if it is signed, over the body of a signed publish request with the CID. C64_honest_partial composes the provider history with the client: what was acknowledged at publication is confirmed later, if no gateway listed the offers meanwhile; FcRetrieval.Gateway.C64_listed_refuted: acknowledgements of a listing are unsigned messages, which no client accepts."},
{"property": "C65", "status": "proved", "theorems": ["FcRetrieval.Register.C65_latest", "FcRetrieval.Register.C65_listing", "FcRetrieval.Register.C65_registered_is_read", "FcRetrieval.Register.C65_delete_all", "FcRetrieval.Register.C65_reply", "FcRetrieval.Register.C65_rest_ignored"], "note": "The register service: after any history of registrations and clearings, a listing and a lookup show exactly the last registration of each id. Of a body only the first JSON value counts; what follows it is left out silently (C65_rest_ignored)."},
{"property": "C66", "status": "partial", "theorems": ["FcRetrieval.Ring.C66_getClosest_more_partial", "FcRetrieval.Ring.C66_getClosest_more_refuted"], "note": "The code leaves out the smallest identifier; exact answer proved."},
{"property": "C67", "status": "partial", "theorems": ["FcRetrieval.Merkle.C67_missing_content_refuted", "FcRetrieval.Merkle.C67_steps_iff_in_list_partial"], "note": "False: generating a proof for missing content reports no error."},
{"property": "C68", "status": "partial", "theorems": ["FcRetrieval.Merkle.C68_answers_iff_partial", "FcRetrieval.Merkle.C68_received_proof_panics_refuted"], "note": "False: a decoded proof with fewer indices than steps panics."},
{"property": "C69", "status": "partial", "theorems": ["FcRetrieval.OfferMgr.C69_nonpositive_limit_refuted", "FcRetrieval.OfferMgr.C24_range_partial"], "note": "the property is false: with limit <= 0 exactly one offer is returned whenever there is one in range"},
{"property": "C70", "status": "partial", "theorems": ["FcRetrieval.Crypto.C70_no_crash_partial", "FcRetrieval.Crypto.C70_empty_string_refuted", "FcRetrieval.Crypto.C70_short_signature"], "note": "The code crashes on the empty string; strings of one to three bytes yield a version that is not there."},
{"property": "C71", "status": "partial", "theorems": ["FcRetrieval.Crypto.C71_version_not_authenticated", "FcRetrieval.Crypto.C71_version_refuted", "FcRetrieval.Crypto.C71_recovery_byte"], "note": "The code does not authenticate the version: every replacement verifies."},
{"property": "C72", "status": "partial", "theorems": ["FcRetrieval.RegMgr.C72_restart_refuted", "FcRetrieval.RegMgr.C72_lookups_fail_refuted", "FcRetrieval.RegMgr.C72_restart_partial", "FcRetrieval.RegMgr.C72_stopped"], "note": "Shutdown clears the table and not the ring; consistent only if everything known before is reported again."},
{"property": "C73", "status": "partial", "theorems": ["FcRetrieval.Gateway.C73_refuted", "FcRetrieval.Gateway.C73_partial"], "note": "False: the offers before the first bad one stay. C73_partial: exactly the verified prefix is stored, and the request is refused."},
{"property": "C74", "status": "partial", "theorems": ["FcRetrieval.Provider.C74_refuted", "FcRetrieval.Provider.C74_expired_refuted", "FcRetrieval.Provider.C74_partial", "FcRetrieval.Provider.C74_miscount_partial"], "note": "False: acknowledging an offer for a CID that nobody acknowledged before writes to a nil map. C74_partial: CIDs acknowledged before. C74_miscount_partial: another number of acknowledgements than messages does not crash it and leaves its records as they are."},
{"property": "C75", "status": "partial", "theorems": ["FcRetrieval.Client.C75_standardV2_refuted", "FcRetrieval.Client.C75_dhtV2_refuted", "FcRetrieval.Client.C75_unpaid_refuted", "FcRetrieval.Client.C75_partial"], "note": "False for a negative limit: both paid calls crash after paying, and without a payment manager the standard one crashes for every limit. C75_partial: no call crashes with a limit that is not negative, a payment manager where it pays, and signed answers that are usable (Spec/ClientCrash)."},
{"property": "C76", "status": "partial", "theorems": ["FcRetrieval.Gateway.C76_partial", "FcRetrieval.Gateway.C76_dhtV2_spends", "FcRetrieval.Gateway.C76_dhtOffer_spends", "FcRetrieval.Gateway.C76_dhtV2_covered_partial", "FcRetrieval.Gateway.C76_dhtV2_refuted", "FcRetrieval.Gateway.C76_dhtOffer_refuted"], "note": "Only the relaying requests spend, only after the voucher of the client is accepted, and what they spend is described exactly. The price is not enforced: a client that pays too little is told 500 and the peers are paid all the same."},
{"property": "C77", "status": "partial", "theorems": ["FcRetrieval.Gateway.C77_refuted", "FcRetrieval.Gateway.C77_partial"], "note": "False: an offer naming another provider, or several, is stored. C77_partial: the signature is that of the publisher."},
{"property": "C78", "status": "partial", "theorems": ["FcRetrieval.Payment.C78_other_channel_refuted", "FcRetrieval.Payment.C78_channel_ignored_partial"], "note": "The code never looks at the channel a voucher names."},
{"property": "C79", "status": "partial", "theorems": ["FcRetrieval.Payment.C79_receive_panics_refuted", "FcRetrieval.Payment.C79_no_panic_partial"], "note": "Panics for an address whose actor state has no To; proved safe for payment channel actors."},
{"property": "C80", "status": "partial", "theorems": ["FcRetrieval.Payment.C80_negative_amount_refuted", "FcRetrieval.Payment.C80_negative_amount_accepted"], "note": "The code accepts negative amounts."},
{"property": "C81", "status": "proved", "theorems": ["FcRetrieval.Payment.C81_only_authentic"], "note": ""},
{"property": "C82", "status": "proved", "theorems": ["FcRetrieval.Payment.C82_nonces_increase", "FcRetrieval.Payment.C82_wrap"], "note": "The uint64 wrap-around is excluded by hypothesis and shown to lose the order."},
{"property": "C83", "status": "partial", "theorems": ["FcRetrieval.Ids.C83_map_from_strings_partial", "FcRetrieval.Ids.C83_map_from_strings_refuted", "FcRetrieval.Ids.C83_map_round_trip"], "note": "The code crashes on a string that is not hex text of at most 64 digits: the constructor's error is ignored and the nil result dereferenced."},
{"property": "C84", "status": "partial", "theorems": ["FcRetrieval.Offer.C84_expired_iff_partial", "FcRetrieval.Offer.C84_far_expiry_refuted"], "note": "False for expiry values from 2^63-62135596800 up: time.Unix wraps and the offer counts as expired."},
{"property": "C85", "status": "partial", "theorems": ["FcRetrieval.Offer.C85_decoded_offer_crashes_refuted", "FcRetrieval.Offer.C85_crash_iff_no_provider_partial", "FcRetrieval.Offer.C85_sub_offer_crash_iff_partial", "FcRetrieval.Offer.C85_decoded_sub_offer_crashes_refuted"], "note": "False: identifier errors are dropped by the decoders. The exact crash conditions are proved."},
{"property": "C86", "status": "proved", "theorems": ["FcRetrieval.Crypto.C86_value", "FcRetrieval.Crypto.C86_distinct_keys", "FcRetrieval.Crypto.C86_errors", "FcRetrieval.Crypto.C86_verify_by_identifier"], "note": ""},
{"property": "C87", "status": "partial", "theorems": ["FcRetrieval.SqlOffer.C87_kinds_refuted", "FcRetrieval.SqlOffer.C87_partial"], "note": "False of the code: the store does not record the kind; every offer is listed by both kinds of lookup."},
{"property": "C88", "status": "partial", "theorems": ["FcRetrieval.SqlOffer.C88_lookup_crash_refuted", "FcRetrieval.SqlOffer.C88_truncated_refuted", "FcRetrieval.SqlOffer.C88_lost_content_refuted", "FcRetrieval.SqlOffer.C88_repeated_add_completes_partial"], "note": "False of the code: a crash between statements leaves an offer with fewer contents (and another Merkle root) or with none, on which a lookup by digest crashes; a failed statement that is not the last is not reported. Proved: repeating an interrupted add completes it."},
{"property": "C89", "status": "partial", "theorems": ["FcRetrieval.Codecs.C89_partial", "FcRetrieval.Codecs.C89_refuted", "FcRetrieval.Codecs.C89_any_malformed_id", "FcRetrieval.Codecs.C89_encode_nil"], "note": "45 kinds cannot crash the receiver, the other 15 can: malformed identifier in a list, malformed CID in an offer, missing private key; encoding a nil pointer panics for all kinds that take one"},
{"property": "C90", "status": "partial", "theorems": ["FcRetrieval.Tcp.C90_refuted", "FcRetrieval.Tcp.C90_partial"], "note": "false: a timeout inside a message loses it and desynchronises the stream; pauses between messages are harmless"},
{"property": "C91", "status": "partial", "theorems": ["FcRetrieval.RegMgr.C91_shutdown_clears_register", "FcRetrieval.RegMgr.C91_others_lost_refuted", "FcRetrieval.RegMgr.C91_not_discovered_partial"], "note": "Shutdown deletes every registration of the discovered kinds."},
{"property": "C92", "status": "partial", "theorems": ["FcRetrieval.RegMgr.C92_null_refuted", "FcRetrieval.RegMgr.C92_answers_taken_partial", "FcRetrieval.Register.C92_listing_read"], "note": "A null element panics in the update routine; all other answers are taken."},
{"property": "C93", "status": "partial", "theorems": ["FcRetrieval.RegMgr.C93_range_exact", "FcRetrieval.RegMgr.C93_contains_itself_refuted", "FcRetrieval.RegMgr.C93_arc_partial", "FcRetrieval.RegMgr.C93_seventeen_partial", "FcRetrieval.RegMgr.C93_smallest_refuted", "FcRetrieval.RegMgr.C93_smallest_few_partial", "FcRetrieval.RegMgr.C93_none_refuted", "FcRetrieval.RegMgr.C93_cluster_refuted"], "note": "False. The exact outcome is known in every network. Up to 3 gateways: an error, except for the smallest of three. Up to 16: from the second smallest other gateway to the largest other one, which need not contain the gateway; for the smallest gateway from the third around to itself. From 17 on, the smallest gateway gets the sixteen that follow it, never itself. From 18 on, every other gateway gets exactly the arc of the 16 nearest others, which contains it if and only if some of these lie on either side. With 17: the range contains all others, and the gateway itself under an exact condition on the two gateways before it."},
{"property": "C94", "status": "partial", "theorems": ["FcRetrieval.RegMgr.C94_two_parts", "FcRetrieval.RegMgr.C94_interference_refuted", "FcRetrieval.RegMgr.C94_many_partial"], "note": "False: the lookup inserts its CID into the shared ring under a read lock; a second lookup between insertion and removal finds that CID, has no gateway for it and fails. Proved for all gateways and CIDs that meet the stated nearness condition. Proved on the positive side: any number of lookups, their two parts in any order, all answer as they would alone and leave the ring as it was, when for each lookup as many gateways as it asks for are nearer to its CID than the CID of any other lookup that is for no gateway. Missing: finer interleavings (torn pointer updates); CIDs below all gateways (C44)."},
{"property": "C95", "status": "partial", "theorems": ["FcRetrieval.Reputation.C95_serial_partial", "FcRetrieval.Reputation.C95_lost_refuted"], "note": "False for clients challenged for the first time by two threads at once (check and initialisation are separate critical sections); proved for all schedules when the clients are known."},
{"property": "C96", "status": "partial", "theorems": ["FcRetrieval.Reputation.C96_set_then_get_partial", "FcRetrieval.Reputation.C96_never_stored_refuted"], "note": "False in the gateway as it is: no handler creates reputation entries and the setting is refused for unknown clients. Proved for clients that are known."},
{"property": "C97", "status": "partial", "theorems": ["FcRetrieval.Gateway.C97_refuted", "FcRetrieval.Gateway.C97_peerDht_partial", "FcRetrieval.Gateway.C97_peerDhtV2_partial", "FcRetrieval.Gateway.C100_peerDhtOffer_refuted", "FcRetrieval.GatewayAdmin.C97_fresh_dht_refuted", "FcRetrieval.GatewayAdmin.C97_fresh_search_refuted", "FcRetrieval.GatewayAdmin.C97_fresh_group_refuted"], "note": "False: one unsigned message with a malformed identifier crashes any gateway, and before it is set up a gateway crashes on well-formed messages too. The partial theorems cover searches with well-formed identifiers."},
{"property": "C98", "status": "partial", "theorems": ["FcRetrieval.Gateway.C98_publish", "FcRetrieval.Gateway.C98_list_refuted"], "note": "C98_publish: an acknowledged publish request is in the store whatever requests follow. C98_list_refuted: the listing acknowledges messages with offers that it dropped."},
{"property": "C99", "status": "partial", "theorems": ["FcRetrieval.Gateway.C99_dht", "FcRetrieval.Gateway.C99_dhtV2", "FcRetrieval.Gateway.C99_dhtOffer", "FcRetrieval.Gateway.C99_replay_refuted"], "note": "The answers are authenticated and attributed; that they are answers to this request is false (nonces are not compared, an old signed answer is relayed)."},
{"property": "C100", "status": "partial", "theorems": ["FcRetrieval.Gateway.C100_standardOffer_refuted", "FcRetrieval.Gateway.C100_peerDhtOffer_refuted", "FcRetrieval.Gateway.C49_standardV2_served", "FcRetrieval.Gateway.C49_standardOffer_served"], "note": "False: paying for an offer that is no longer held loses the money without an answer. The served theorems say when the answer comes."},
{"property": "C101", "status": "partial", "theorems": ["FcRetrieval.Admin.C101_never_succeeds_refuted", "FcRetrieval.Admin.C101_stored_refuted", "FcRetrieval.Admin.C101_not_notified_refuted"], "note": "False in two of its three parts: the gateway stores the setting, tells no provider, and answers with a message of another type, so that the call always fails."},
{"property": "C102", "status": "partial", "theorems": ["FcRetrieval.Gateway.C102_partial", "FcRetrieval.Gateway.C102_peers_partial", "FcRetrieval.Gateway.C102_topup_refuted", "FcRetrieval.Gateway.C102_unpaid_refuted"], "note": "False when the channel needs a top-up: the price of a search, or nothing, is paid. C102_partial and C102_peers_partial: exact, for any number of peers, when the channels have the funds; the refutations are for one peer."},
{"property": "C103", "status": "partial", "theorems": ["FcRetrieval.Provider.C103_refuted", "FcRetrieval.Provider.C103_uninitialised_refuted", "FcRetrieval.Provider.C103_partial"], "note": "False: a malformed gateway identifier in one unsigned message crashes any provider."},
{"property": "C104", "status": "partial", "theorems": ["FcRetrieval.Provider.C104_near", "FcRetrieval.Provider.C104_refuted", "FcRetrieval.Provider.C104_unreachable"], "note": "C104_near: every gateway near a CID of the batch gets the offers, nobody else. C104_unreachable: if answers of gateways are lost, a publication that succeeds still does, so every near gateway is still sent the offers. False that a gateway gets only those it is near to: every gateway asked gets the whole batch."},
{"property": "C105", "status": "proved", "theorems": ["FcRetrieval.Provider.C105_authentic"], "note": "For every state and message."},
{"property": "C106", "status": "partial", "theorems": ["FcRetrieval.Provider.C106_refuted", "FcRetrieval.Provider.C106_partial", "FcRetrieval.Provider.C106_unreachable"], "note": "False if a registered gateway has a malformed identifier: those after it get nothing and the admin gets an error. C106_partial: whenever the admin is answered, every gateway was sent the offer, and nobody else. C106_unreachable: gateways that do not answer change nothing of that."},
{"property": "C107", "status": "proved", "theorems": ["FcRetrieval.Provider.C107_key", "FcRetrieval.Provider.C107_signed"], "note": ""},
{"property": "C108", "status": "proved", "theorems": ["FcRetrieval.Provider.C108_uninitialised", "FcRetrieval.Provider.C108_initialise", "FcRetrieval.Provider.C108_refresh"], "note": ""},
{"property": "C109", "status": "partial", "theorems": ["FcRetrieval.Client.C109_partial", "FcRetrieval.Client.C109_refuted"], "note": "With a maximum of zero or less one gateway is returned."},
{"property": "C110", "status": "partial", "theorems": ["FcRetrieval.Client.C110_standardV2", "FcRetrieval.Client.C110_standard_honest", "FcRetrieval.Client.C110_standardV2_honest", "FcRetrieval.Client.C110_dht", "FcRetrieval.Client.C110_dhtV2_partial", "FcRetrieval.Client.C110_dhtV2_empty_refuted", "FcRetrieval.Client.C110_dhtV2_limit_refuted"], "note": "All but DHT discovery v2: one gateway without offers empties its result, and a limit reached early loses the offers paid for. The honest theorems compose client and gateway."},
{"property": "C111", "status": "partial", "theorems": ["FcRetrieval.ClientConc.C111_terminates", "FcRetrieval.ClientConc.C111_no_deadlock", "FcRetrieval.ClientConc.C111_sound", "FcRetrieval.ClientConc.C111_refuted", "FcRetrieval.ClientConc.C111_count_refuted", "FcRetrieval.ClientConc.C111_partial", "FcRetrieval.ClientConc.C111_alone", "FcRetrieval.ClientConc.C111_alone_active", "FcRetrieval.ClientConc.C111_removed"], "note": "Termination, absence of deadlock and soundness are proved for every schedule. The inclusion of the active gateways in those in use is false (C111_refuted: activation and removal at the same time); it is proved for schedules without removal. Two concurrent additions may both count the same gateway. C111_removed: at the moment a removal returns, none of the gateways it was given is in use, whatever runs at the same time."},
{"property": "C112", "status": "partial", "theorems": ["FcRetrieval.Client.C112_refuted", "FcRetrieval.Client.C112_ack_refuted", "FcRetrieval.Client.C75_partial"], "note": "False: the holder of a gateway's or provider's key can make one signed answer that crashes every client that asks. C75_partial: answers that are not signed by the gateway asked, and usable signed ones, never crash a discovery call."},
{"property": "C113", "status": "partial", "theorems": ["FcRetrieval.Client.C113_standardV2", "FcRetrieval.Client.C113_total", "FcRetrieval.Client.C113_dhtV2_partial", "FcRetrieval.Client.C113_price_refuted", "FcRetrieval.Client.C113_payee_refuted"], "note": "Holds of the standard discovery. False of the DHT discovery: a search costs num times a constant whatever is configured, and a gateway asking for payment chooses who is paid."},
{"property": "C114", "status": "partial", "theorems": ["FcRetrieval.Client.C114_standard", "FcRetrieval.Client.C114_dht", "FcRetrieval.Client.C114_standardV2_refuted", "FcRetrieval.Client.C114_standardV2_partial", "FcRetrieval.Client.C114_dhtV2_refuted"], "note": "Holds of both first versions. Standard v2 hides the failure of the request it has paid for; DHT v2 accepts an answer for another CID and nonce."},
{"property": "C115", "status": "partial", "theorems": ["FcRetrieval.Client.C115_standardV2_refuted", "FcRetrieval.Client.C115_standard_honest_partial"], "note": "The client checks neither the CID nor the expiry of an offer; from a gateway that runs this code both hold."},
{"property": "C116", "status": "partial", "theorems": ["FcRetrieval.Admin.C116_initialise_partial", "FcRetrieval.Admin.C116_initialiseV2_partial", "FcRetrieval.Admin.C116_wrong_key_refuted", "FcRetrieval.Admin.C116_lost_payments_refuted"], "note": "Holds if the key belongs to the record and the payment manager can be made; otherwise the call fails and the gateway has changed all the same."},
{"property": "C117", "status": "partial", "theorems": ["FcRetrieval.Admin.C117_gateway_refuted", "FcRetrieval.Admin.C117_gateway_takeover_refuted", "FcRetrieval.Admin.C117_provider_refuted", "FcRetrieval.Admin.C117_provider_takeover_refuted", "FcRetrieval.Admin.C117_gateway_partial"], "note": "False: no signature of an admin message is looked at, and an unsigned message takes over any node. Only the two requests that set a gateway up change its identifier or key."},
{"property": "C118", "status": "partial", "theorems": ["FcRetrieval.Admin.C118_refuted", "FcRetrieval.Admin.C118_partial"], "note": "False: after it is set up again with the same wallet a gateway credits every voucher again. No other admin request touches payments."},
{"property": "C119", "status": "partial", "theorems": ["FcRetrieval.Admin.C119_gateway_partial", "FcRetrieval.Admin.C119_provider_partial", "FcRetrieval.Admin.C119_gateway_replay_refuted", "FcRetrieval.Admin.C119_provider_replay_refuted", "FcRetrieval.Admin.C119_other_key_refuted"], "note": "Success means that the node was sent a request of this kind and that some answer of this kind, signed with the key in the record, was read; answers carry nothing of the request, so an old one can be repeated."},
{"property": "C120", "status": "partial", "theorems": ["FcRetrieval.Admin.C120_gateway_refuted", "FcRetrieval.Admin.C120_provider_refuted"], "note": "False: the private keys are sent in clear. Nothing of the property is left to prove."},
{"property": "C121", "status": "proved", "theorems": ["FcRetrieval.Admin.C121_get", "FcRetrieval.Admin.C121_set", "FcRetrieval.Admin.C121_unknown", "FcRetrieval.Admin.C121_get_answer", "FcRetrieval.Admin.C121_set_answer"], "note": ""},
{"property": "C122", "status": "partial", "theorems": ["FcRetrieval.Listing.C122_provider", "FcRetrieval.Listing.C122_partial", "FcRetrieval.Listing.C122_lookup_partial", "FcRetrieval.Listing.C122_refuted", "FcRetrieval.Listing.C122_unasked"], "note": "false as stated: success is written before any provider is asked, and is returned although no provider answers. Proved: for providers that are honest whenever they answer, the call succeeds and the gateway stores, and finds, every offer they listed. C122_provider also shows that the provider crashes on an acknowledgement for an offer nobody had acknowledged before. A request that says not to refresh changes nothing (C122_unasked)."},
{"property": "C123", "status": "partial", "theorems": ["FcRetrieval.Admin.C123_gateway_confirmed_partial", "FcRetrieval.Admin.C123_provider_confirmed_partial", "FcRetrieval.Admin.C123_unused", "FcRetrieval.Admin.C123_unused_provider", "FcRetrieval.Admin.C123_lookup_refuted"], "note": "False for records that write the identifier in upper case: the node is filed under one name and looked up under another."},
{"property": "C124", "status": "partial", "theorems": ["FcRetrieval.Admin.C124_initialise_partial", "FcRetrieval.Admin.C124_initialiseV2_partial", "FcRetrieval.Admin.C124_wrong_key_refuted", "FcRetrieval.Admin.C124_no_payments_refuted", "FcRetrieval.Admin.C124_refresh"], "note": "Holds if the key belongs to the record and the payment manager can be made; otherwise the call fails and the provider has changed all the same. Refreshing: holds."},
{"property": "C125", "status": "partial", "theorems": ["FcRetrieval.Admin.C125_group_partial", "FcRetrieval.Admin.C125_dht_partial", "FcRetrieval.Admin.C125_group_refuted", "FcRetrieval.Admin.C125_dht_refuted"], "note": "Success means that the offers were made as asked and sent to the right gateways; it does not depend on any gateway having received or accepted them."},
{"property": "C126", "status": "proved", "theorems": ["FcRetrieval.Admin.C126_listing"], "note": ""},
{"property": "C127", "status": "partial", "theorems": ["FcRetrieval.Prng.C127_partial", "FcRetrieval.Prng.C127_alone", "FcRetrieval.Prng.C127_refuted"], "note": "Proved for calls one after the other, for any inner generator (clock after 1970). False for concurrent calls: for every digest, state and length there is a schedule in which two calls get the same bytes, since the shared digest object is used without a lock."},
{"property": "C128", "status": "partial", "theorems": ["FcRetrieval.Prng.C128_partial", "FcRetrieval.Prng.C128_keys_partial", "FcRetrieval.Prng.C128_refuted"], "note": "As C127: proved one after the other; two goroutines can get the same identifier or the same key material. C128_keys_partial: keys generated one after the other are made of different bytes."},
{"property": "C129", "status": "proved", "theorems": ["FcRetrieval.Prng.C129_fills", "FcRetrieval.Prng.C129_key"], "note": "ecdsa.GenerateKey of the library is modelled as in Go 1.16."},
{"property": "C130", "status": "partial", "theorems": ["FcRetrieval.Prng.C130_refuted", "FcRetrieval.Prng.C130_next_refuted", "FcRetrieval.Prng.C130_partial"], "note": "False: the bytes handed out are the hidden state, so with a known inner generator they determine everything that follows. Holds only until the first 32 bytes are handed out."},
{"property": "C131", "status": "partial", "theorems": ["FcRetrieval.Prng.C131_partial", "FcRetrieval.Prng.C131_times", "FcRetrieval.Prng.C131_refuted"], "note": "Exact for histories of calls one after the other; a generator made at the same time as another can be lost from the pool."},
{"property": "C132", "status": "proved", "theorems": ["FcRetrieval.Prng.C132"], "note": ""},
{"property": "C133", "status": "proved", "theorems": ["FcRetrieval.Listing.C133_gateway"], "note": ""},
{"property": "C134", "status": "proved", "theorems": ["FcRetrieval.Journey.C134_group", "FcRetrieval.Journey.C134_dht"], "note": "Composes the provider admin, provider, gateway and client models. Ready says the gateway runs the same code, knows the key of the provider and can store; Lived says that digests do not collide. The limits on price, quality of service and expiry are those of SQLite and of JSON times (C26)."},
{"property": "C135", "status": "partial", "theorems": ["FcRetrieval.Journey.C135_partial", "FcRetrieval.Journey.C135_refuted"], "note": "False: a registered provider publishes first an offer in the name of another on the same terms, with its own signature; the digest does not cover the signature, so the gateway acknowledges the real offer and drops it, and clients find only the forged one. Proved when no valid request of somebody else carries an offer in the name of the provider."},
{"property": "C136", "status": "partial", "theorems": ["FcRetrieval.Config.C136_partial", "FcRetrieval.Config.C136_default", "FcRetrieval.Config.C136_suffix_refuted", "FcRetrieval.Config.C136_leading_zero_refuted", "FcRetrieval.Config.C136_radix", "FcRetrieval.Config.C136_foreign", "FcRetrieval.Config.C136_foreign_blanks", "FcRetrieval.Config.C136_separator"], "note": "Whole decimal numbers without a superfluous leading zero are read correctly, with blanks, sign and underscores, and a missing or non-numeric text gives the default. Refuted in general: a number is read only up to the first other character, so 0.001 (the notation of the comments in the code) is a price of zero and 1e18 is one; a leading zero means base eight. C136_radix covers the hexadecimal, octal and binary prefixes. C136_foreign: a character outside ASCII where the number is expected or directly after its digits makes the text no number, and the default is taken; C136_foreign_blanks: blanks outside ASCII before the number are passed over. C136_separator: an underscore that is not between two digits makes the text no number. Missing: variables whose bytes are not UTF-8."},
{"property": "C137", "status": "partial", "theorems": ["FcRetrieval.Config.C137_partial", "FcRetrieval.Config.C137_decimal_partial", "FcRetrieval.Config.C137_default", "FcRetrieval.Config.C137_refuted", "FcRetrieval.Config.C137_negative_refuted"], "note": "Timeouts written as whole numbers or decimal fractions with units are used; a missing duration or one without unit gives the default. Refuted: the configured interval for asking the register is never used, gateways and providers always ask every ten seconds; a negative timeout is accepted. Missing: fractions of a nanosecond, which floating point rounds."},
{"property": "C138", "status": "proved", "theorems": ["FcRetrieval.Startup.C138_gateway", "FcRetrieval.Startup.C138_provider", "FcRetrieval.Startup.C138_shared"], "note": "Exactly the message types of each API are served at its port, for every request; with one port for clients and admin all admin requests are served to clients (C138_shared)."},
{"property": "C139", "status": "partial", "theorems": ["FcRetrieval.Startup.C139_partial", "FcRetrieval.Startup.C139_taken", "FcRetrieval.Startup.C139_refuted", "FcRetrieval.Config.C139_algorithm"], "note": "The ports for nodes are listened on or start-up fails. Refuted: if the port for clients or the admin is taken, the error is only logged, start-up completes and nothing listens there."},
{"property": "C140", "status": "partial", "theorems": ["FcRetrieval.Settings.C140_partial", "FcRetrieval.Settings.C140_build", "FcRetrieval.Settings.C140_admin", "FcRetrieval.Settings.C140_refuted"], "note": "Each field is the last value set or the default, for all sequences of calls. Refuted for one field: the time to live returned by the settings of the gateway admin is always zero, although the package defines a default of 100 that is never used."},
{"property": "C141", "status": "proved", "theorems": ["FcRetrieval.LazyInit.C141_one", "FcRetrieval.LazyInit.C141_nil", "FcRetrieval.LazyInit.C141_returns"], "note": "Steps are atomic and sequentially consistent; the unlocked first read is a data race in Go (C160), so the language itself promises this only to the extent that pointer-sized reads are not torn or reordered."},
{"property": "C142", "status": "proved", "theorems": ["FcRetrieval.GatewayLife.C142_lookup", "FcRetrieval.GatewayLife.C142_publish"], "note": "For any history of requests from the start of the process, in any order and each in its own environment, among them any requests of the admin: whatever can be looked up came in a publish request or a list that the registered provider vouched for, has the cid and has not expired; and an offer whose publication the gateway acknowledged is found under each of its cids until it expires, whatever the admin set before or after. Assumes a working database and no collision among the digests of the offers brought. One request at a time."},
{"property": "C143", "status": "proved", "theorems": ["FcRetrieval.GatewayLife.C143_key", "FcRetrieval.GatewayLife.C143_signed"], "note": "For any history: identifier and key are those of the last initialisation that could be read; every message the gateway writes or sends, to anybody, verifies under the public part of that key and carries its version. An answer to an initialisation is already signed with the key it sets."},
{"property": "C144", "status": "proved", "theorems": ["FcRetrieval.GatewayLife.C144_ready", "FcRetrieval.GatewayLife.C144_unready", "FcRetrieval.GatewayLife.C144_establishment", "FcRetrieval.GatewayLife.C144_wallet"], "note": "For any history: with a key set last (and, for the six kinds of requests that are paid, a wallet), a request is handled with that key, identifier, prices and the offers taken so far; an establishment request in time is answered. Without a key, or without a wallet for those six kinds, nothing is ever written or sent."},
{"property": "C145", "status": "partial", "theorems": ["FcRetrieval.GatewayLife.C145_paid_partial", "FcRetrieval.GatewayLife.C145_refuted"], "note": "Proved for paid services: after a disclosure, no request that carries the same voucher, or another one of its lane and channel that is not higher, gets anything, until the admin sets a new wallet. False for free services: nonces are not remembered, a request is served again any number of times."},
{"property": "C146", "status": "partial", "theorems": ["FcRetrieval.GatewayLife.C146_partial", "FcRetrieval.GatewayLife.C146_refuted"], "note": "False: the versions of a request are never looked at, a request in any version is served alike. What is left: every answer carries the gateway's own versions and is of the kind that belongs to the request, never one about protocol changes."},
{"property": "C147", "status": "partial", "theorems": ["FcRetrieval.GatewayLife.C147_partial", "FcRetrieval.GatewayLife.C147_unpaid_refuted", "FcRetrieval.GatewayLife.C147_empty_refuted"], "note": "Proved for all ways of asking but one. False for requests of offers by digest: unpaid ones, and paid ones that list no digest, are answered with found = false for any cid."},
{"property": "C148", "status": "partial", "theorems": ["FcRetrieval.GatewayLife.C148_refuted"], "note": "False: setting a reputation changes no answer to a client, gateway or provider."},
{"property": "C149", "status": "partial", "theorems": ["FcRetrieval.GatewayLife.C149_partial", "FcRetrieval.GatewayLife.C149_refuted"], "note": "Proved: worse offers are kept beside the old one. False: a better offer does not replace the old one, both are handed out until the old one expires."},
{"property": "C150", "status": "partial", "theorems": ["FcRetrieval.Register.C150_partial", "FcRetrieval.Register.C150_refuted", "FcRetrieval.Register.C150_offers_refuted", "FcRetrieval.Register.C150_deleted_refuted"], "note": "False: a second registration under an identifier replaces the first one whatever its key, its owner can then publish offers in the provider's name, and anybody can delete all registrations. What is left: a registration changes no record of another identifier or kind."},
{"property": "C151", "status": "proved", "theorems": ["FcRetrieval.Js.C151_key", "FcRetrieval.Js.C151_verifies", "FcRetrieval.Js.C151_establishes", "FcRetrieval.Js.C151_active"], "note": "For every history of the Go gateway from its start; the network hands the client's text to the gateway's handler and brings its answer back in any JSON layout."},
{"property": "C152", "status": "partial", "theorems": ["FcRetrieval.GatewayLife.C152_refuted"], "note": "False: searching other gateways changes nothing in the store; the next standard discovery is answered as if there had been no search."},
{"property": "C153", "status": "proved", "theorems": ["FcRetrieval.JsonGrammar.C153_read", "FcRetrieval.JsonGrammar.C153_refused", "FcRetrieval.JsonGrammar.C153_one", "FcRetrieval.JsonGrammar.C153_written", "FcRetrieval.JsonGrammar.C153_sent", "FcRetrieval.JsonGrammar.C153_message", "FcRetrieval.JsonGrammar.C153_message_refused", "FcRetrieval.C153_names"], "note": "The grammar is RFC 8259 (Spec/JsonGrammar) for numbers without fraction or exponent; accepted beyond it is only half of a surrogate pair, read as U+FFFD. Member names are matched up to letter case, as Go does; of two members with the same name only the last is looked at."},
{"property": "C154", "status": "proved", "theorems": ["FcRetrieval.WireFormat.C154_basic", "FcRetrieval.WireFormat.C154_client", "FcRetrieval.WireFormat.C154_gateway", "FcRetrieval.WireFormat.C154_gateway_admin", "FcRetrieval.WireFormat.C154_provider", "FcRetrieval.WireFormat.C154_provider_admin", "FcRetrieval.WireFormat.C154_layout", "FcRetrieval.C153_names"], "note": "The tables in the statements are taken from the struct tags and type.go. A list is null or an array."},
{"property": "C155", "status": "proved", "theorems": ["FcRetrieval.Js.C155_answered", "FcRetrieval.Js.C155_active", "FcRetrieval.Js.C155_to_use"], "note": "Up to forgery: what is shown is that the signature verifies under the registered key."},
{"property": "C156", "status": "partial", "theorems": ["FcRetrieval.Js.C156_refuted", "FcRetrieval.Js.C156_partial"], "note": "False: the time to live is added to a clock in milliseconds and compared by gateways with a clock in seconds, so for any time to live a request is still answered up to 999 times the age of the epoch later. Proved: past the sum, taken as seconds, there is no answer and the client does not go on."},
{"property": "C157", "status": "partial", "theorems": ["FcRetrieval.Js.C157_refuted", "FcRetrieval.Js.C157_unread_refuted", "FcRetrieval.Js.C157_charge", "FcRetrieval.Js.C157_when_refuted", "FcRetrieval.Js.C157_gateway_refuted"], "note": "False: whatever the network answers, no discovery returns an offer (the standard one throws at the first offer, the DHT one is a stub) and no acknowledgement is confirmed; no message a Go gateway writes can be read by the offer decoder, which does not take the body out of base64. Proved about the payment: without balance the search starts a top-up it does not await and goes out without a voucher."},
{"property": "C158", "status": "partial", "theorems": ["FcRetrieval.JsPay.C158_next", "FcRetrieval.JsPay.C158_within", "FcRetrieval.JsPay.C158_pays", "FcRetrieval.JsPay.C158_refuted", "FcRetrieval.JsPay.C158_lost_refuted", "FcRetrieval.JsPay.C158_failed_refuted", "FcRetrieval.JsPay.C158_partial", "FcRetrieval.JsPay.C158_all_partial", "FcRetrieval.JsPay.C158_text"], "note": "For all interleavings: order, amounts, cover by the recorded balance. False of the money on the chain when top-ups for a recipient overlap: vouchers can exceed the channel, and a channel can be lost with what it holds. False also for a caller that awaits every top-up: a top-up whose message fails on the chain is recorded all the same. Proved when the caller awaits a top-up before the next one for the same recipient and the chain executes what it takes."},
{"property": "C159", "status": "partial", "theorems": ["FcRetrieval.JsPay.C159_refuted", "FcRetrieval.JsPay.C159_partial"], "note": "False: making a channel takes the nonce 0 of a wallet that has sent nothing for an error, so a new wallet can never pay, whatever is called. Proved for a wallet that has sent a message."},
{"property": "C160", "status": "partial", "theorems": ["FcRetrieval.LazyInit.C160_refuted", "FcRetrieval.LazyInit.C160_partial"], "note": "False: the first look at the field is taken without the lock, so it races with the write of another call, for every pair of calls. Proved of the rest: every later access to the field is ordered with the write by the lock or comes after it."},
{"property": "C161", "status": "partial", "theorems": ["FcRetrieval.Http.C161_partial", "FcRetrieval.Http.C161_up_partial", "FcRetrieval.Http.C161_outage", "FcRetrieval.Http.C161_listing", "FcRetrieval.Http.C161_refuted"], "note": "False: any answer at all counts as success, whatever its status, so at a wrong path or behind a proxy a node is told that it is registered and is not. Proved with the register service itself at the address: success is reported exactly when the record was stored, and listings are read as what is registered or as no answer."},
{"property": "C162", "status": "partial", "theorems": ["FcRetrieval.EnvFile.C162_error", "FcRetrieval.EnvFile.C162_safe", "FcRetrieval.EnvFile.C162_equal_partial", "FcRetrieval.EnvFile.C162_after_partial", "FcRetrieval.EnvFile.C162_same_partial", "FcRetrieval.EnvFile.C162_line_ends", "FcRetrieval.EnvFile.C162_refuted"], "note": "False of values that contain the character =: what follows it is not compared, so files that differ there are called equal and are not overwritten. All else proved, the comparison for files with at most one = in a line."},
{"property": "C163", "status": "partial", "theorems": ["FcRetrieval.Gateway.C163_partial", "FcRetrieval.Gateway.C163_late", "FcRetrieval.Gateway.C163_short", "FcRetrieval.Gateway.C163_refused", "FcRetrieval.Gateway.C163_refuted"], "note": "False: a request of a client that comes late gets no answer at all, neither message nor error, at every gateway; and a relayed search or request for offers whose payment is too low gets two answers, the error 500 followed by what the full price would have bought. Every other request gets exactly one answer or breaks the handler down (C97). Refused vouchers are answered by an error before anybody is asked or paid."},
{"property": "C164", "status": "proved", "theorems": ["FcRetrieval.Provider.C164_once"], "note": "For every request; a provider whose key does not sign would not answer a publication."},
{"property": "C165", "status": "partial", "theorems": ["FcRetrieval.SqlOffer.Conc.C165_alone_add", "FcRetrieval.SqlOffer.Conc.C165_alone_search", "FcRetrieval.SqlOffer.Conc.C165_kept", "FcRetrieval.SqlOffer.Conc.C165_search_partial", "FcRetrieval.SqlOffer.Conc.C165_lookup_partial", "FcRetrieval.SqlOffer.Conc.C165_half_refuted", "FcRetrieval.SqlOffer.Conc.C165_crash_refuted"], "note": "False: between two statements of an addition a search by CID can return part of the offer under another Merkle root (C165_half_refuted), and a lookup by its digest crashes (C165_crash_refuted); both for every offer. What holds for every interleaving: additions are not lost and the final store answers like a sequential one (C165_kept); searches by CID and range never crash, find every offer stored before and return parts of published offers only (C165_search_partial); lookups of offers stored before are right (C165_lookup_partial). Calls that run alone are those of the sequential model (C165_alone_*)."},
{"property": "C166", "status": "partial", "theorems": ["FcRetrieval.BigInt.C166_as_numbers_partial", "FcRetrieval.BigInt.C166_sent_partial", "FcRetrieval.BigInt.C166_balance_partial", "FcRetrieval.BigInt.C166_promised_partial", "FcRetrieval.BigInt.C166_written_partial", "FcRetrieval.BigInt.C166_default_partial", "FcRetrieval.BigInt.C166_sent_refuted", "FcRetrieval.BigInt.C166_balance_refuted", "FcRetrieval.BigInt.C166_written_refuted", "FcRetrieval.BigInt.C166_product_refuted"], "note": "False: a new channel's balance is a copy of the caller's number that shares its words, and adding to it writes into them when the array has room. For every number with room, the third top-up sends another amount (C166_sent_refuted) and another recipient's recorded balance changes (C166_balance_refuted); every amount of 20 to 38 digits in the settings, 10 FIL and more, is such a number (C166_written_refuted), and so is every product of two numbers (C166_product_refuted). What holds: with numbers without room, such as amounts of up to 19 digits and the default, every history is that of the model with plain numbers (C166_as_numbers_partial)."},
{"property": "C167", "status": "partial", "theorems": ["FcRetrieval.Gateway.Conc.C167_alone", "FcRetrieval.Gateway.Conc.C167_apart_partial", "FcRetrieval.Gateway.Conc.C167_total_partial", "FcRetrieval.Gateway.Conc.C167_refuted"], "note": "False: on a channel the gateway has not received from before, any number of copies of one request are all served if they all look the channel up before the first enters it (C167_refuted, for standard discoveries, their offers, and discoveries asked by other gateways). On a known channel vouchers of served requests differ and pay for each answer (C167_apart_partial, C167_total_partial); the handlers' programs, run alone, are the handlers of the sequential model (C167_alone)."},
{"property": "C168", "status": "partial", "theorems": ["FcRetrieval.FilAddress.C168_refuted", "FcRetrieval.FilAddress.C168_over_refuted", "FcRetrieval.FilAddress.C168_network", "FcRetrieval.FilAddress.C168_zeros", "FcRetrieval.FilAddress.C168_one_spelling_partial", "FcRetrieval.FilAddress.C168_numbers"], "note": "False: entries are kept by the text of the channel, and the address library reads t… and f…, and numbers with leading zeros, as the same address; a voucher is credited once for each of these texts (C168_refuted), so twice the balance is credited (C168_over_refuted). Within the balance as long as everyone writes the address in one way (C168_one_spelling_partial). C168_numbers: which texts of digits are addresses, and of which number."},
{"property": "C169", "status": "partial", "theorems": ["FcRetrieval.Pool.Wait.C169_pool", "FcRetrieval.Pool.Wait.C169_no_deadlock", "FcRetrieval.Pool.Wait.C169_returns", "FcRetrieval.Pool.Wait.C169_own_node_partial", "FcRetrieval.Pool.Wait.C169_remover_partial", "FcRetrieval.Pool.Wait.C169_refuted"], "note": "False: a request that failed holds the lock of the whole pool while it waits for another request to the same node to end, and until then no request to any node begins (C169_refuted). There is no deadlock and all requests return (C169_no_deadlock, C169_returns); without such a removal a request waits only for its own node (C169_own_node_partial, C169_remover_partial). C169_pool carries C46 over to this model."},
{"property": "C170", "status": "partial", "theorems": ["FcRetrieval.Identity.C170_apart_partial", "FcRetrieval.Identity.C170_steady_partial", "FcRetrieval.Identity.C170_refuted", "FcRetrieval.Identity.C170_lasting_refuted", "FcRetrieval.Identity.C170_crash_refuted"], "note": "False: nothing protects the three fields. While an identity is being set, messages can carry any mixture of the old and the new one (C170_refuted); two requests that set one can leave a mixture for good (C170_lasting_refuted); a request during the first set-up can find a key without a version and crash (C170_crash_refuted). True if no request meets another half-way (C170_apart_partial) or none is being set (C170_steady_partial)."},
{"property": "C171", "status": "proved", "theorems": ["FcRetrieval.Provider.Records.C171_complete", "FcRetrieval.Provider.Records.C171_listed", "FcRetrieval.Provider.Records.C171_ack", "FcRetrieval.Provider.Records.C171_real"], "note": "For all earlier records and all interleavings. The acknowledgements of a listing (C74) are not among the overlapping requests."},
{"property": "C172", "status": "proved", "theorems": ["FcRetrieval.Journey.C172_search", "FcRetrieval.Journey.C172_nothing", "FcRetrieval.Journey.C172_published", "FcRetrieval.Journey.C172_between", "FcRetrieval.Journey.C172_story"], "note": "Spec/PaidJourney says when books agree (InStep), what the gateway sees of the client (Settles), and when two messages follow one another (Trades, Continues). C172_search: result, messages, payments and books of a search that finds something; C172_nothing: one that finds nothing; C172_between: traffic of others keeps the books in step; C172_published: composition with the publish theorem C98_publish. The reputation, retrieval and DHT variants are not part of it. C172_story: any number of searches one after the other, with whatever the gateway serves for others before, between and during them; at the end the gateway has credited exactly what the client has paid."},
{"property": "C173", "status": "partial", "theorems": ["FcRetrieval.JsMerkle.C173_proof_verifies_partial", "FcRetrieval.JsMerkle.C173_absent_partial", "FcRetrieval.JsMerkle.C173_same_leaves_partial", "FcRetrieval.JsMerkle.C173_caller_list_partial", "FcRetrieval.JsMerkle.C173_same_root_refuted", "FcRetrieval.JsMerkle.C173_six_leaves_refuted", "FcRetrieval.JsMerkle.C173_caller_list_refuted"], "note": "False: the leaves are hashes of the texts of the CIDs (in Go the CIDs themselves), so the roots differ for every list (C173_same_root_refuted); a node without a neighbour is moved up instead of hashed with itself (C173_six_leaves_refuted); the constructor pushes onto the caller's list when its length is odd. Proved: proofs verify, absent contents are refused unless their hash is the root, and roots agree over equal leaves when their number is a power of two."},
{"property": "C174", "status": "proved", "theorems": ["FcRetrieval.JsMerkle.C174_go", "FcRetrieval.JsMerkle.C174_js"], "note": "Both trees. Lists of different lengths can have the same root (C12_root_ignores_repeated_last, C13_inner_node_passes_refuted)."},
{"property": "C175", "status": "proved", "theorems": ["FcRetrieval.Dump.C175_lines", "FcRetrieval.Dump.C175_recover", "FcRetrieval.Dump.C175_message"], "note": ""},
{"property": "C176", "status": "partial", "theorems": ["FcRetrieval.HttpWait.C176_held_up_refuted", "FcRetrieval.HttpWait.C176_queue_refuted", "FcRetrieval.HttpWait.C176_one_partial", "FcRetrieval.HttpWait.C176_turn_partial", "FcRetrieval.HttpWait.C176_returns_partial", "FcRetrieval.HttpWait.C176_goes_on_partial"], "note": "False: the mutex of the communicator is held over the whole exchange, so while one server is silent every other call of the library waits, up to 180 seconds for each such call before it (C176_held_up_refuted for every schedule, C176_queue_refuted for every number of calls). Proved: one exchange at a time, 180 seconds per turn, nobody waits longer than 180 seconds for every call made, no deadlock."},
{"property": "C177", "status": "partial", "theorems": ["FcRetrieval.RingShared.C177_insert_parts", "FcRetrieval.RingShared.C177_list_parts", "FcRetrieval.RingShared.C177_call_parts", "FcRetrieval.RingShared.C177_lost_refuted", "FcRetrieval.RingShared.C177_endless_refuted", "FcRetrieval.RingShared.C177_bound_refuted", "FcRetrieval.RingShared.C177_apart_partial", "FcRetrieval.RingShared.C177_many_partial", "FcRetrieval.RingShared.C177_listed_partial", "FcRetrieval.RingShared.C177_ranges_partial"], "note": "False: the ring of CIDs has no lock. Two offers published at the same time with no offered CID between them: the one that writes first is stored and found by its CID but is in no listing of any range. Two listings at the same time: a listing whose bound the other one removes walks the ring for ever. An offer of a CID that is published while a listing from that CID is about to end: stored and found by its CID but in no listing of any range. Proved: any number of publications, in any order of their parts, with an offered CID between any two of theirs, leave every later listing right; and any number of listings between offered CIDs, all parts in any order together with those publications, come to an end, change nothing for the publications, and answer all CIDs of the range that were offered before the listing began. Insert, GetWithinRange and AddDHTOffer are proved equal to the composition of their parts. The bounds may also be CIDs that are not offered, if an offered CID lies between any two that are published or bounds, and below and above each, and no two requests share one: then listings put their bounds on the ring and take them off again without harm to each other or to publications. Missing: other interleavings, and torn reads."},
{"property": "C178", "status": "partial", "theorems": ["FcRetrieval.SqlOffer.Conn.C178_exact", "FcRetrieval.SqlOffer.Conn.C178_never_back", "FcRetrieval.SqlOffer.Conn.C178_sold", "FcRetrieval.SqlOffer.Conn.C178_exhausted_refuted", "FcRetrieval.SqlOffer.Conn.C178_given_back_partial"], "note": "False: a search by digest that finds its offer, and a listing that comes to its limit, leave their result set open, and the connection is never given back. Whatever the number of connections that can be in use, an offer on sale is found by its digest as often as there are connections but one, the next search crashes, and from then on nothing is found by content, range or digest and nothing can be stored (C178_exhausted_refuted). Proved: how many connections every history keeps, and that it is answered as with connections without end while there is room (C178_exact); that none is ever given back (C178_never_back); that a gateway keeps one for every offer it sells (C178_sold); that histories without searches by digest and without limited listings keep none (C178_given_back_partial)."},
{"property": "C179", "status": "partial", "theorems": ["FcRetrieval.Payment.Terms.C179_terms_refuted", "FcRetrieval.Payment.Terms.C179_settled_refuted", "FcRetrieval.Payment.Terms.C179_answered_refuted", "FcRetrieval.Payment.Terms.C179_own_partial", "FcRetrieval.Payment.Terms.C179_signed"], "note": "False: Receive looks at channel balance, payer, payee, lane, nonce and amount only. Wherever a voucher is credited its payer can sign the same voucher under a time lock, a secret they keep or a call they choose, and it is credited the same though it cannot be collected (C179_terms_refuted); a settled channel is credited like an open one (C179_settled_refuted); a gateway answers a search paid with a voucher nobody can ever collect (C179_answered_refuted). Proved: every voucher that Pay issues, in every history, can be collected at every epoch on the channel named while that is not settled (C179_own_partial), and is signed over what Receive checks (C179_signed). What the chain asks of a voucher is the specification Collectable, from the documentation of the fields."},
{"property": "C180", "status": "partial", "theorems": ["FcRetrieval.Restart.C180_kept", "FcRetrieval.Restart.C180_client", "FcRetrieval.Restart.C180_only", "FcRetrieval.Restart.C180_moments", "FcRetrieval.Restart.C180_ready", "FcRetrieval.Restart.C180_silent_refuted", "FcRetrieval.Restart.C180_renamed_refuted", "FcRetrieval.Restart.C180_voucher_refuted"], "note": "False: offers survive, the rest does not. C180_kept: whatever lives came before and after and wherever they were cut, an acknowledged offer is found by every later life that opens the file of the same name; C180_client: and a client of that life finds an offer on its terms, a genuine one if every publisher of the provider signs its offers itself; C180_only: whatever is found was brought by a request of one of the lives, exactly so if no life was cut, and otherwise with some of its contents (a truncated offer can be served, see C88); C180_moments: the databases left by a cut after any statement are covered; C180_ready: set up again it serves as before. But key, identifier and wallet are gone and it is silent until its admin sets it up again (C180_silent_refuted), a machine or container of another name opens another, empty file (C180_renamed_refuted), and with the same wallet it credits every old voucher again in full (C180_voucher_refuted). The file is named after the machine, not the gateway, so that a second gateway on the machine serves the offers of the first (C180_kept with another key in the later lives). One process at a time; requests one at a time."},
{"property": "C181", "status": "partial", "theorems": ["FcRetrieval.PayLocks.C181_completes", "FcRetrieval.PayLocks.C181_others_go_on_partial", "FcRetrieval.PayLocks.C181_new_recipient_refuted", "FcRetrieval.PayLocks.C181_known_recipient_refuted", "FcRetrieval.PayLocks.C181_first_voucher_refuted"], "note": "False: a top-up to a new recipient waits for its receipt under the lock of all outbound channels, so that no payment and no other top-up returns before (C181_new_recipient_refuted, for any other threads and schedule); a top-up to a known recipient holds that lock for reading, and one attempt to top up a new recipient then closes it for everybody (C181_known_recipient_refuted); the first voucher of a channel asks the chain under the lock of all inbound channels (C181_first_voucher_refuted). Proved: no deadlock, bounded completion, exclusion and no lock left behind for any calls and schedule (C181_completes); a resting call holds up nobody that it does not clash with (C181_others_go_on_partial)."},
{"property": "C182", "status": "partial", "theorems": ["FcRetrieval.PayNonce.C182_numbers_differ_partial", "FcRetrieval.PayNonce.C182_two_known_refuted"], "note": "False: top-ups to two recipients that both have a channel can be told the same message number, and the chain executes at most one message of a number (C182_two_known_refuted, for any two recipients and any number). Proved: when of any two top-ups one is to a new recipient or both are to the same one, all numbers differ under every schedule (C182_numbers_differ_partial)."},
{"property": "C183", "status": "partial", "theorems": ["FcRetrieval.Payment.C183_credited", "FcRetrieval.Payment.C183_stranded_refuted"], "note": "False in its second half. C183_credited: the vouchers of all lives, shown to the gateway as they are issued, are each credited with exactly what was paid, provided that the chain gives new channels new addresses. C183_stranded_refuted: the channels are kept in memory only, so that after a restart nothing can be paid until a new top-up has opened another channel, and no voucher is ever issued again on the old one: what was topped up and not spent is out of reach of this software."},
{"property": "C184", "status": "partial", "theorems": ["FcRetrieval.Provider.C184_forgets_refuted", "FcRetrieval.Provider.C184_client_refuted"], "note": "False: nothing that a provider knows outlives the process. After any earlier lives, until it publishes again, it tells its admin that it has published nothing, gateways that it has no offers and clients that it has no acknowledgements; FindOfferAck of a client then returns false for whatever offer of an earlier life, although the gateway still serves it."},
{"property": "C185", "status": "partial", "theorems": ["FcRetrieval.AdminLocks.C185_completes", "FcRetrieval.AdminLocks.C185_others_go_on_partial", "FcRetrieval.AdminLocks.C185_features_refuted", "FcRetrieval.AdminLocks.C185_ask_refuted"], "note": "False: the book of the nodes in use is locked over the exchange with a node. While UpdateGatewaySupportedFeatures waits for a silent node, every other call of the library waits too, also those that are refused without a message (C185_features_refuted, for any other threads and schedule); while any other call waits, the end of one successful initialisation has the same effect, and is itself held up (C185_ask_refuted). Proved: no deadlock, bounded completion, exclusion, no lock left behind; calls that do not clash go on."},
{"property": "C186", "status": "partial", "theorems": ["FcRetrieval.Logging.C186_client_partial", "FcRetrieval.Logging.C186_admin_partial", "FcRetrieval.Logging.C186_client_refuted", "FcRetrieval.Logging.C186_admin_refuted"], "note": "False: the refusal is a log message at the level of panics, and a message below the level that is set does nothing. With the level given as the empty text (NoLevel of zerolog 1.23, above panic) Build returns settings without the keys, for every sequence of calls without them. Proved for every level up to panic and for texts that are no level: Build panics exactly if a key is missing, and the settings have the keys set last. That a disabled message does nothing is behaviour of the logging library at that version; its source is not in the sandbox, so this is part of the trusted base."},
{"property": "C187", "status": "partial", "theorems": ["FcRetrieval.ProviderLocks.C187_completes", "FcRetrieval.ProviderLocks.C187_gateway", "FcRetrieval.ProviderLocks.C187_reader_partial", "FcRetrieval.ProviderLocks.C187_admin_refuted", "FcRetrieval.ProviderLocks.C187_client_refuted"], "note": "No deadlock, and a gateway that does not answer holds up nobody. False of readers: the lock of the acknowledgements is held while a client's answer is written, and that of the offers while the admin's is, with no time-out; a client that does not read stops every publication of DHT offers and every listing, and with them all other clients. Proved for requests that use other records."},
{"property": "C188", "status": "partial", "theorems": ["FcRetrieval.ClientLocks.C188_completes", "FcRetrieval.ClientLocks.C188_activation", "FcRetrieval.ClientLocks.C188_others_go_on_partial", "FcRetrieval.ClientLocks.C188_deactivate_refuted", "FcRetrieval.ClientLocks.C188_remove_refuted", "FcRetrieval.ClientLocks.C188_chain_refuted"], "note": "No deadlock; and while an activation or a request for a proof waits, every call that talks to nobody returns. False of searches: the list of active gateways is held for reading over the whole search, payments and waits for the chain included, so a call that takes any gateway off a list does not return, and as soon as one waits, no other call that uses a list does, whichever gateway it is about. Proved for calls that do not clash."},
{"property": "C189", "status": "proved", "theorems": ["FcRetrieval.Startup.C189_gateway", "FcRetrieval.Startup.C189_provider"], "note": "The start-up and the register manager together, over all answers of the register. Answers with a null entry crash the manager (C92)."},
{"property": "C190", "status": "partial", "theorems": ["FcRetrieval.Js.C190_request_partial", "FcRetrieval.Js.C190_discovery_partial", "FcRetrieval.Js.C190_other_cid_refuted", "FcRetrieval.Js.C190_search_refuted"], "note": "Holds: the answer is signed under the key of the registration and carries the nonce and the offers. False: the content identifiers are compared as they print, and all print as [object Object], so an answer about one is taken for every other; the result of verifying the answer to the first request is thrown away."},
{"property": "C191", "status": "partial", "theorems": ["FcRetrieval.Js.C191_search_refuted", "FcRetrieval.Js.C191_offers_partial", "FcRetrieval.Js.C191_offers_refuted"], "note": "False: the search request has an empty body, which every gateway refuses as malformed; of a request for offers the names of the members differ, so no content identifier, digests or channel is read, and the gateway looks up the content identifier of 32 zero bytes. Holds: the nonce and the voucher are read as they were sent."},
{"property": "C192", "status": "partial", "theorems": ["FcRetrieval.Js.C192_standard_partial", "FcRetrieval.Js.C192_inactive_partial", "FcRetrieval.Js.C192_dht_refuted"], "note": "Holds for standard discovery, whatever the network answers, and without an active gateway. False for DHT discovery: it issues two vouchers, of n search prices each, although it asks nobody and returns nothing."},
{"property": "C193", "status": "partial", "theorems": ["FcRetrieval.Js.C193_written_partial", "FcRetrieval.Js.C193_read_refuted", "FcRetrieval.Js.C193_signature_refuted", "FcRetrieval.Js.C193_never_refuted"], "note": "Holds: the bytes written are Go's. False: no version at all is read right, since the client takes the four bytes for the characters of a decimal number; of every version below 150994944 it reads NaN."},
{"property": "C194", "status": "partial", "theorems": ["FcRetrieval.Js.C194_verifies_partial", "FcRetrieval.Js.C194_bound_refuted", "FcRetrieval.Js.C194_message_refuted"], "note": "Holds: the signature verifies, here and in Go, for the text that was signed. False: that text is the values one after the other, without names and boundaries, so different messages share a signature; and a message that carries the client's own signature is refused by the client itself, which verifies the JSON text. The client never sends a signed message."},
{"property": "C195", "status": "partial", "theorems": ["FcRetrieval.Js.C195_limit_partial", "FcRetrieval.Js.C195_kept_refuted", "FcRetrieval.Js.C195_told_refuted"], "note": "Holds: the limit, if it is at least one. False: both checks are empty functions, so the first offers are kept whatever is in them, one also if none is asked for; every offer answers with the same constants (price 42, no provider, no signature). The loop gets to an offer only if somebody makes instances of the class; JSON.parse does not (C157)."},
{"property": "C196", "status": "partial", "theorems": ["FcRetrieval.SharedDisk.C196_lookup", "FcRetrieval.SharedDisk.C196_range", "FcRetrieval.SharedDisk.C196_partial", "FcRetrieval.SharedDisk.C196_refuted"], "note": "False: the file of the database is named after the container or else the machine, and not after the gateway, so two gateways without container on one machine find and sell each other's offers (C196_refuted, whatever else is added before and after). C196_lookup: a lookup finds exactly the unexpired offers for the content that gateways of the same name were given, and C196_range says the same of listings. C196_partial: a gateway whose name no other has finds only its own. Adds of different gateways are whole steps."}
]}
