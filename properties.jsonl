{"id": "C01", "title": "Ring insertion builds the sorted cyclic set", "statement": "Starting from CreateRing, after any sequence of Insert calls the ring contains exactly the valid identifiers inserted (one entry per numeric value), Size is their number, following next visits them in ascending numeric order and returns to the smallest, prv is the inverse of next, and every stored distance is the clockwise distance to the neighbour. Invalid strings are ignored.", "quantifier": "every finite sequence of strings passed to Insert, every ring size", "why_tests_cant": "the pointer surgery has head, middle, tail, one-node and duplicate cases whose combination depends on the whole insertion history; a test fixes a few orders", "anchors": ["common/pkg/dhtring/dhtring.go:Ring.Insert", "common/pkg/dhtring/dhtring.go:CreateRing", "common/pkg/dhtring/dhtring.go:validateInput", "common/pkg/dhtring/dhtring.go:getDist"]}
{"id": "C02", "title": "Ring removal removes exactly the named identifier", "statement": "Remove(x) leaves every other stored identifier reachable and in order, makes x unreachable, decrements Size iff x was stored, and does nothing when x is not stored.", "quantifier": "every well-formed ring and every argument", "why_tests_cant": "correctness depends on where the identifier sits relative to the head and on the ring size; unit tests check Size only, which is decremented even when the node stays linked", "anchors": ["common/pkg/dhtring/dhtring.go:Ring.Remove"]}
{"id": "C03", "title": "GetClosest returns the nearest identifiers", "statement": "GetClosest(x, n) on a ring of at least n identifiers returns exactly n identifiers, listed in clockwise order, none of which is farther from x (the shorter way round the circle) than any identifier left out; x itself is included when stored. Identifiers that denote the same number in different letter case are out of scope.", "quantifier": "every well-formed ring, every target, every num", "why_tests_cant": "nearest-k over a ring is a statement about all pairs of returned and omitted entries and about wrap-around", "anchors": ["common/pkg/dhtring/dhtring.go:Ring.GetClosest", "common/pkg/dhtring/dhtring.go:getDist"]}
{"id": "C04", "title": "Ring queries do not change the ring", "statement": "GetClosest and GetWithinRange leave the set of stored identifiers, their links and Size unchanged.", "quantifier": "every well-formed ring, every query, and hence every history of queries", "why_tests_cant": "the damage appears only in a later call on the same ring, and only for targets on one side of the head", "anchors": ["common/pkg/dhtring/dhtring.go:Ring.GetClosest", "common/pkg/dhtring/dhtring.go:Ring.GetWithinRange", "common/pkg/dhtring/dhtring.go:Ring.Remove"]}
{"id": "C05", "title": "GetWithinRange returns exactly the clockwise arc", "statement": "GetWithinRange(a,b) with a different from b returns, in clockwise order starting at a, exactly the stored identifiers on the clockwise arc from a to b, both ends included when stored.", "quantifier": "every well-formed ring and every pair of endpoints, stored or not, with or without wrap-around", "why_tests_cant": "the arc is defined by comparison with both ends for every stored key; wrap-around and absent endpoints multiply the cases", "anchors": ["common/pkg/dhtring/dhtring.go:Ring.GetWithinRange", "common/pkg/dhtring/dhtring.go:Ring.get"]}
{"id": "C06", "title": "Excluded identifier is never returned by GetClosest", "statement": "GetClosest(x,num,e) with e different from x never returns e, and e is still stored afterwards iff it was before.", "quantifier": "every well-formed ring, target, count and exclusion", "why_tests_cant": "exclusion is implemented by temporarily removing and re-adding the entry; its effect depends on the rest of the ring", "anchors": ["common/pkg/dhtring/dhtring.go:Ring.GetClosest"]}
{"id": "C07", "title": "Clockwise distances are consistent", "statement": "The clockwise distance used by the ring is between 1 and 2^256, is congruent to the difference of the keys, satisfies dist(a,b)+dist(b,a)=2^256 for different keys, and around any well-formed ring the stored distances add up to exactly 2^256.", "quantifier": "all pairs of 256-bit keys; all well-formed rings", "why_tests_cant": "2^512 pairs of keys; the sum law ranges over rings of every size", "anchors": ["common/pkg/dhtring/dhtring.go:getDist"]}
{"id": "C08", "title": "Node and content identifiers are canonical", "statement": "Building an identifier from bytes, a hex string or a big integer succeeds exactly when the input is at most 32 bytes (and well-formed hex), left-pads with zeros, and ToString then always has 64 lower-case hex digits; rebuilding from ToString or ToBytes gives the same identifier, and two identifiers have the same ToString iff their bytes are equal.", "quantifier": "all byte strings, hex strings and naturals", "why_tests_cant": "round-trip and injectivity over an unbounded input space", "anchors": ["common/pkg/nodeid/nodeid.go:NewNodeIDFromBytes", "common/pkg/nodeid/nodeid.go:NewNodeIDFromHexString", "common/pkg/nodeid/nodeid.go:NewNodeID", "common/pkg/nodeid/nodeid.go:ToString", "common/pkg/cid/cid.go:NewContentIDFromBytes", "common/pkg/cid/cid.go:NewContentIDFromHexString", "common/pkg/cid/cid.go:NewContentID"]}
{"id": "C09", "title": "Identifier JSON round trip", "statement": "MarshalJSON followed by UnmarshalJSON restores the identifier, and UnmarshalJSON accepts only values carrying exactly 32 bytes.", "quantifier": "all identifiers; all JSON byte-string payloads", "why_tests_cant": "unbounded input space", "anchors": ["common/pkg/nodeid/nodeid.go:MarshalJSON", "common/pkg/nodeid/nodeid.go:UnmarshalJSON", "common/pkg/cid/cid.go:MarshalJSON", "common/pkg/cid/cid.go:UnmarshalJSON"]}
{"id": "C10", "title": "SortClockwise is the clockwise permutation", "statement": "SortClockwise(start, ids) is a permutation of ids ordered by clockwise distance from start: first the ids >= start ascending, then the ids < start ascending.", "quantifier": "every start identifier and every list of identifiers, any length", "why_tests_cant": "a statement about every list", "anchors": ["common/pkg/nodeid/nodeid.go:SortClockwise"]}
{"id": "C11", "title": "Byte-distance helper is a ring metric", "statement": "GetDistance(x,y,card) is symmetric, zero iff x=y (for x,y < card), never more than half the ring and never more than |x-y|.", "quantifier": "all naturals below any ring cardinality", "why_tests_cant": "unbounded arithmetic domain", "anchors": ["common/pkg/math/distance.go:GetDistance"]}
{"id": "C12", "title": "Merkle proofs are complete", "statement": "For every non-empty list of contents and every content in it, the tree built from the list generates a proof that verifies that content against the tree's root.", "quantifier": "all non-empty lists of 32-byte contents of any length (odd or even), every member", "why_tests_cant": "ranges over every tree shape", "anchors": ["common/pkg/fcrmerkletree/tree.go:CreateMerkleTree", "common/pkg/fcrmerkletree/tree.go:GenerateMerkleProof", "common/pkg/fcrmerkletree/proof.go:VerifyContent"]}
{"id": "C13", "title": "Merkle proofs are sound", "statement": "If a proof verifies content x against the root of a tree built from a list, then x is in the list, unless a hash collision is exhibited.", "quantifier": "all lists, contents and adversarial proofs", "why_tests_cant": "quantifies over adversarial inputs", "anchors": ["common/pkg/fcrmerkletree/proof.go:VerifyContent", "common/pkg/fcrmerkletree/tree.go:CreateMerkleTree"]}
{"id": "C14", "title": "Proof of a missing content does not verify", "statement": "A proof generated for a content that is not in the tree never verifies against the root (given collision resistance).", "quantifier": "all lists and all non-members", "why_tests_cant": "absence ranges over all other contents", "anchors": ["common/pkg/fcrmerkletree/tree.go:GenerateMerkleProof", "common/pkg/cidoffer/cidoffer.go:GenerateSubCIDOffer"]}
{"id": "C15", "title": "Merkle proof serialisation round trip", "statement": "Decoding the serialised form of a proof gives back the same path and index list, and inputs whose embedded lengths do not match are rejected rather than read out of bounds.", "quantifier": "all proofs with every path element and index list; all byte strings as decoder input", "why_tests_cant": "length-prefixed binary format over all lengths", "anchors": ["common/pkg/fcrmerkletree/proof.go:MarshalJSON", "common/pkg/fcrmerkletree/proof.go:UnmarshalJSON", "common/pkg/fcrmerkletree/proof.go:VerifyContent"]}
{"id": "C16", "title": "Offer digest identifies the offer terms", "statement": "Two offers have the same digest pre-image iff they agree on provider, ordered CID list, price, expiry and QoS; the signature does not influence the digest, and the base64 form of a digest decodes to the digest.", "quantifier": "all pairs of offers, any number of CIDs", "why_tests_cant": "injectivity over an unbounded domain", "anchors": ["common/pkg/cidoffer/cidoffer.go:GetMessageDigest", "common/pkg/cidoffer/cidoffer.go:EncodeMessageDigest", "common/pkg/cidoffer/cidoffer.go:DecodeMessageDigest"]}
{"id": "C17", "title": "Offer signatures bind the terms", "statement": "An offer or sub-offer verifies under a key exactly when its signature is valid for the tuple (provider, Merkle root, price, expiry, QoS): signing then verifying succeeds, any change of one of these fields makes it fail (given an unforgeable scheme), and verification does not depend on the carried CID list other than through the root.", "quantifier": "all offers, keys, and field changes", "why_tests_cant": "ranges over all modifications", "anchors": ["common/pkg/cidoffer/cidoffer.go:Sign", "common/pkg/cidoffer/cidoffer.go:Verify", "common/pkg/cidoffer/subcidoffer.go:Verify"]}
{"id": "C18", "title": "Every CID of an offer yields a verifiable sub-offer", "statement": "For a signed offer and each CID it contains, GenerateSubCIDOffer returns a sub-offer whose signature verifies under the same key and whose Merkle proof verifies, and its terms equal those of the offer.", "quantifier": "all offers and all members", "why_tests_cant": "ranges over all offer sizes and positions", "anchors": ["common/pkg/cidoffer/cidoffer.go:GenerateSubCIDOffer", "common/pkg/cidoffer/subcidoffer.go:VerifyMerkleProof"]}
{"id": "C19", "title": "Offer JSON round trip", "statement": "Unmarshalling the JSON of an offer or a sub-offer gives an offer with the same fields, digest and Merkle root.", "quantifier": "all offers and sub-offers", "why_tests_cant": "round trip over an unbounded domain", "anchors": ["common/pkg/cidoffer/cidoffer.go:MarshalJSON", "common/pkg/cidoffer/cidoffer.go:UnmarshalJSON", "common/pkg/cidoffer/subcidoffer.go:MarshalJSON"]}
{"id": "C20", "title": "Offer manager never returns an expired offer", "statement": "GetOffers(cid) at time t returns only offers whose expiry is not before t, and once it has dropped an expired offer no later lookup returns that offer under any of its CIDs.", "quantifier": "every history of adds and lookups with every non-decreasing clock", "why_tests_cant": "depends on the whole history and on time", "anchors": ["common/pkg/fcroffermgr/offer_manager.go:GetOffers", "common/pkg/fcroffermgr/offer_storage.go:get", "common/pkg/fcroffermgr/offer_storage.go:add"]}
{"id": "C21", "title": "Offer manager lookup is exact", "statement": "Without concurrent calls GetOffers(cid) returns exactly the unexpired accepted offers that list cid, each once, group offers first; GetGroupOffers and GetDHTOffers only return offers accepted through the corresponding call.", "quantifier": "every sequential history", "why_tests_cant": "refinement of a nested-map structure with deletion over all histories", "anchors": ["common/pkg/fcroffermgr/offer_manager.go:AddGroupOffer", "common/pkg/fcroffermgr/offer_manager.go:AddDHTOffer", "common/pkg/fcroffermgr/offer_manager.go:GetOffers", "common/pkg/fcroffermgr/offer_storage.go:add", "common/pkg/fcroffermgr/offer_storage.go:get"]}
{"id": "C22", "title": "Adding an offer twice changes nothing", "statement": "Adding an offer whose digest is already stored reports success/failure as documented and leaves every later lookup unchanged; an offer with one CID is never accepted as a group offer and one with several never as a DHT offer, and an expired one never is accepted.", "quantifier": "every history and offer", "why_tests_cant": "history-dependent", "anchors": ["common/pkg/fcroffermgr/offer_manager.go:AddGroupOffer", "common/pkg/fcroffermgr/offer_manager.go:AddDHTOffer", "common/pkg/fcroffermgr/offer_storage.go:add"]}
{"id": "C23", "title": "Concurrent additions are not lost", "statement": "If several AddGroupOffer/AddDHTOffer calls for the same CID run concurrently and all report success then every one of the offers is returned afterwards, and lookups running in between do not crash.", "quantifier": "every interleaving of any number of calls", "why_tests_cant": "the failing interleavings are a vanishing fraction of schedules", "anchors": ["common/pkg/fcroffermgr/offer_storage.go:add", "common/pkg/fcroffermgr/offer_storage.go:get"]}
{"id": "C24", "title": "DHT range listing respects range and limit", "statement": "GetDHTOffersWithinRange(min,max,limit) returns only unexpired DHT offers whose CID lies on the clockwise arc from min to max, and at most limit of them for every limit >= 1.", "quantifier": "every history, range and limit", "why_tests_cant": "history- and range-dependent", "anchors": ["common/pkg/fcroffermgr/offer_manager.go:GetDHTOffersWithinRange"]}
{"id": "C25", "title": "Offers can be found by digest", "statement": "After a successful add GetOfferByDigest(d) returns the offer with digest d; for digests never added it returns nothing.", "quantifier": "every sequential history and digest", "why_tests_cant": "history-dependent", "anchors": ["common/pkg/fcroffermgr/offer_manager.go:GetOfferByDigest"]}
{"id": "C26", "title": "Database-backed offer store is exact", "statement": "For the SQL-backed store, after any sequence of adds: lookup by CID, by digest and by CID range return exactly the stored unexpired offers matching the query (range: lexicographic on hex), limited to the first maxOffers when a positive limit is given; re-adding an offer changes nothing.", "quantifier": "every history of adds, every query and clock", "why_tests_cant": "relational state over all histories", "anchors": ["common/pkg/offermgr/offer_manager.go:insertOffer", "common/pkg/offermgr/offer_manager.go:selectOffersSingle", "common/pkg/offermgr/offer_manager.go:selectOffersRange", "common/pkg/offermgr/offer_manager.go:GetOffers", "common/pkg/offermgr/offer_manager.go:GetOfferByDigest"]}
{"id": "C27", "title": "Message envelope authenticity", "statement": "A message signed with a key verifies under the matching public key; a message whose type, protocol version, supported versions or body was changed after signing does not verify (given an unforgeable scheme); unsigned messages never verify.", "quantifier": "all messages, keys and modifications", "why_tests_cant": "ranges over all modifications", "anchors": ["common/pkg/fcrmessages/fcrmessage.go:Sign", "common/pkg/fcrmessages/fcrmessage.go:Verify", "common/pkg/fcrmessages/fcrmessage.go:MarshalJSON"]}
{"id": "C28", "title": "Verification does not alter the message", "statement": "Verify leaves the message unchanged, so that verifying twice or under another key afterwards gives the same answer as verifying a fresh copy.", "quantifier": "all messages and all sequences of verification attempts", "why_tests_cant": "needs sequences of attempts with different keys", "anchors": ["common/pkg/fcrmessages/fcrmessage.go:Verify"]}
{"id": "C29", "title": "Message type codes are unambiguous", "statement": "Different message kinds have different type codes, so a decoder rejects messages of every other kind.", "quantifier": "all pairs of message kinds", "why_tests_cant": "a global property of the constant table", "anchors": ["common/pkg/fcrmessages/type.go"]}
{"id": "C30", "title": "Message codecs round trip", "statement": "For every message kind Decode(Encode(args)) returns the same arguments and Decode of any other type code fails.", "quantifier": "all argument values of every message kind", "why_tests_cant": "some fifty codecs over unbounded domains", "anchors": ["common/pkg/fcrmessages/*.go"]}
{"id": "C31", "title": "TCP framing delivers what was sent", "statement": "A message written by sendTCPMessage and read by readTCPMessage is the same message; a truncated stream yields an error, never a wrong message.", "quantifier": "all payloads up to 2^32-1 bytes, all truncations", "why_tests_cant": "unbounded payloads and every cut point", "anchors": ["common/pkg/fcrp2pserver/tcp_comms.go:sendTCPMessage", "common/pkg/fcrp2pserver/tcp_comms.go:readTCPMessage"]}
{"id": "C32", "title": "Back-to-back TCP messages are all delivered", "statement": "If several messages are written to a connection then reading repeatedly delivers all of them in order, however the bytes arrive.", "quantifier": "every message sequence and every chunking of the byte stream", "why_tests_cant": "depends on kernel buffering, i.e. on every chunking", "anchors": ["common/pkg/fcrp2pserver/tcp_comms.go:readTCPMessage"]}
{"id": "C33", "title": "Key version and key encodings round trip", "statement": "Decoding an encoded key version, private key or public key yields the same value, and the next key version is the successor modulo 2^32.", "quantifier": "all versions, keys, and input strings", "why_tests_cant": "unbounded input space", "anchors": ["common/pkg/fcrcrypto/key_version.go:DecodeKeyVersionFromBytes", "common/pkg/fcrcrypto/keypair_retrieval.go:DecodePrivateKey", "common/pkg/fcrcrypto/keypair_retrieval.go:DecodePublicKey"]}
{"id": "C34", "title": "Signature strings carry the key version", "statement": "ExtractKeyVersionFromMessage(SignMessage(k,v,m)) = v, and VerifyMessage accepts SignMessage(k,v,m) for m under the matching key and for no other message (given an unforgeable scheme).", "quantifier": "all keys, versions, messages and strings", "why_tests_cant": "unbounded input space", "anchors": ["common/pkg/fcrcrypto/msg_signing.go:SignMessage", "common/pkg/fcrcrypto/msg_signing.go:VerifyMessage", "common/pkg/fcrcrypto/msg_signing.go:ExtractKeyVersionFromMessage"]}
{"id": "C35", "title": "Payer never commits more than was funded", "statement": "For each recipient the total amount promised by all vouchers issued by Pay never exceeds the total of the successful Topup amounts, as long as no negative amounts are moved; when funds do not suffice Pay issues nothing, changes nothing and reports that a top-up is needed, and when they do suffice it issues a voucher.", "quantifier": "every sequential history of Topup and Pay over all recipients, lanes and (non-negative) amounts", "why_tests_cant": "accounting invariant over all histories", "anchors": ["common/pkg/fcrpaymentmgr/payment_manager.go:Topup", "common/pkg/fcrpaymentmgr/payment_manager.go:Pay"]}
{"id": "C36", "title": "Vouchers of a lane are cumulative and ordered", "statement": "On each lane the vouchers issued by Pay carry nonces 0,1,2,... and cumulative amounts equal to the sum of the amounts paid so far on that lane; lanes do not influence each other's nonces or amounts.", "quantifier": "every sequential history", "why_tests_cant": "history-dependent", "anchors": ["common/pkg/fcrpaymentmgr/payment_manager.go:Pay"]}
{"id": "C37", "title": "Payee credits each voucher at most once", "statement": "For each channel the sum of the amounts credited by Receive on a lane equals the highest accepted cumulative voucher amount of that lane, presenting an already accepted voucher again is rejected and changes nothing that matters, and the total credited never exceeds the channel's on-chain balance.", "quantifier": "every sequential history of Receive with arbitrary (adversarial) vouchers and chain views", "why_tests_cant": "adversarial histories", "anchors": ["common/pkg/fcrpaymentmgr/payment_manager.go:Receive"]}
{"id": "C38", "title": "Payer and payee agree", "statement": "If every voucher issued by Pay is presented to Receive in order, every one is accepted and credited with exactly the amount paid.", "quantifier": "every history of positive payments on any lanes", "why_tests_cant": "end-to-end over all histories", "anchors": ["common/pkg/fcrpaymentmgr/payment_manager.go:Pay", "common/pkg/fcrpaymentmgr/payment_manager.go:Receive"]}
{"id": "C39", "title": "Concurrent Receive does not double-credit", "statement": "Under every interleaving of concurrent Receive calls a given voucher is credited at most once.", "quantifier": "every interleaving", "why_tests_cant": "the race window is tiny", "anchors": ["common/pkg/fcrpaymentmgr/payment_manager.go:Receive"]}
{"id": "C40", "title": "Concurrent Topup does not lose funds", "statement": "Under every interleaving of concurrent Topup calls for one recipient the recorded balance is the sum of the amounts deposited.", "quantifier": "every interleaving", "why_tests_cant": "the race window is tiny", "anchors": ["common/pkg/fcrpaymentmgr/payment_manager.go:Topup"]}
{"id": "C41", "title": "Register lookups release their locks", "statement": "After every lookup call on the register manager returns, no lock acquired by it is still held, so that later refreshes and shutdown make progress.", "quantifier": "every history of lookups and refreshes", "why_tests_cant": "the effect shows only at a later writer", "anchors": ["common/pkg/fcrregistermgr/register_manager.go:GetProvider", "common/pkg/fcrregistermgr/register_manager.go:GetGateway"]}
{"id": "C42", "title": "Range lookup cannot deadlock", "statement": "GetGatewayCIDRange always returns.", "quantifier": "every interleaving with a refresh", "why_tests_cant": "needs a precise interleaving", "anchors": ["common/pkg/fcrregistermgr/register_manager.go:GetGatewayCIDRange", "common/pkg/fcrregistermgr/register_manager.go:GetGatewaysNearCID"]}
{"id": "C43", "title": "Register cache tracks the register", "statement": "After any history of update rounds every gateway ever reported by the register is found by GetGateway with the latest reported data, GetAllGateways lists exactly these, and the ring used for nearness holds exactly the cached identifiers.", "quantifier": "every history of refreshes with arbitrary register contents", "why_tests_cant": "history-dependent", "anchors": ["common/pkg/fcrregistermgr/register_manager.go:updateGateways", "common/pkg/fcrregistermgr/register_manager.go:GetGateway", "common/pkg/fcrregistermgr/register_manager.go:GetAllGateways", "common/pkg/fcrregistermgr/register_manager.go:Shutdown"]}
{"id": "C44", "title": "Gateways near a CID", "statement": "GetGatewaysNearCID returns at most 16 registered gateways, never the one excluded, and they are the nearest ones.", "quantifier": "every cache content, CID and count", "why_tests_cant": "rests on nearest-k", "anchors": ["common/pkg/fcrregistermgr/register_manager.go:GetGatewaysNearCID"]}
{"id": "C45", "title": "Refresh waits for the update", "statement": "When Refresh returns, an update round requested after the call has been performed; the manager thread never blocks for ever while callers wait.", "quantifier": "every interleaving of callers with the update routine", "why_tests_cant": "schedule-dependent", "anchors": ["common/pkg/fcrregistermgr/register_manager.go:Refresh", "common/pkg/fcrregistermgr/register_manager.go:updateGateways"]}
{"id": "C46", "title": "At most one pooled connection per peer", "statement": "Under every interleaving of concurrent requests the connection pool holds at most one connection per node and every request gets a live connection; surplus connections are closed.", "quantifier": "every interleaving", "why_tests_cant": "schedule-dependent", "anchors": ["common/pkg/fcrp2pserver/pool.go"]}
{"id": "C47", "title": "Requests are dispatched to the right handler", "statement": "A server calls the handler registered for the received message type on that address and no other; unknown types get an invalid-message reply and the connection stays usable; handlers added after Start are ignored.", "quantifier": "every handler table and message", "why_tests_cant": "ranges over all tables", "anchors": ["common/pkg/fcrp2pserver/server.go:handleIncomingConnection", "common/pkg/fcrrestserver/server.go"]}
{"id": "C48", "title": "Reputation stays in range", "statement": "After any sequence of reputation events a client's reputation is between the minimum and the maximum, positive events never lower and negative events never raise a reputation that is in range; changing an unknown client is the only panic. The admin may set any value.", "quantifier": "every history of events for every client", "why_tests_cant": "history-dependent; int64 arithmetic", "anchors": ["gateway/internal/reputation/reputation_store.go:changeClientReputation", "gateway/internal/reputation/reputation.go"]}
{"id": "C49", "title": "Gateway serves only after payment", "statement": "A discovery request whose voucher is worth less than the price does not return offers or digests, and does not spend the gateway's own funds.", "quantifier": "all requests and payment amounts", "why_tests_cant": "all amounts and states", "anchors": ["gateway/internal/api/clientapi/*.go", "gateway/internal/api/gatewayapi/*.go"]}
{"id": "C50", "title": "The price of an offer is constant", "statement": "The price charged per offer is the configured one for every request in a gateway's life.", "quantifier": "every history of requests", "why_tests_cant": "the first request is charged correctly", "anchors": ["gateway/internal/api/gatewayapi/dht_discover_offer_handler.go:HandleGatewayDHTOfferRequest"]}
{"id": "C51", "title": "Expired and unauthenticated requests are refused", "statement": "A gateway answers a gateway-to-gateway discovery only if the sender is registered, the message verifies under the registered signing key and the TTL has not passed; client requests past their TTL are dropped.", "quantifier": "all requests, clocks and registers", "why_tests_cant": "all combinations", "anchors": ["gateway/internal/api/gatewayapi/dht_discover_handler.go", "gateway/internal/api/clientapi/establishment_handler.go"]}
{"id": "C52", "title": "Only verified offers are stored by a gateway", "statement": "After any publish request every offer newly present in the gateway's store carries a signature valid under the registered key of the provider named in the request.", "quantifier": "all publish requests", "why_tests_cant": "all lists of offers and all positions of a bad one", "anchors": ["gateway/internal/api/providerapi/publish_dht_offer_handler.go", "gateway/internal/api/providerapi/publish_group_offer_handler.go"]}
{"id": "C53", "title": "Provider lists all its DHT offers in bounded messages", "statement": "The list response splits the offers in range into messages of at most 50 whose concatenation is the list itself, with no empty message unless there are no offers.", "quantifier": "all offer lists", "why_tests_cant": "all lengths", "anchors": ["provider/internal/api/gatewayapi/list_dht_offer_handler.go"]}
{"id": "C54", "title": "Published DHT offers are stored faithfully by the provider", "statement": "After an admin publishes a batch of DHT offers the provider's own store answers a lookup for each CID with that CID's offer.", "quantifier": "all batches", "why_tests_cant": "shows only with two or more offers and a content comparison", "anchors": ["provider/internal/api/adminapi/publish_dht_offer_handler.go", "common/pkg/fcroffermgr/offer_storage.go:add"]}
{"id": "C55", "title": "Acknowledgements are recorded", "statement": "Once a gateway has acknowledged a published DHT offer the provider can show, for that CID and gateway, the request and the matching acknowledgement, and reports nothing for pairs never acknowledged.", "quantifier": "every history of publishes and listings", "why_tests_cant": "history-dependent", "anchors": ["provider/internal/api/providerapi/publish_dht_offer_requester.go", "provider/internal/api/gatewayapi/list_dht_offer_handler.go", "provider/internal/api/clientapi/dht_offer_ack_handler.go"]}
{"id": "C56", "title": "Group-offer support notifications take effect", "statement": "After a gateway announces that it supports (or stops supporting) group offers the provider's list contains (or no longer contains) it.", "quantifier": "every history of notifications", "why_tests_cant": "history-dependent", "anchors": ["provider/internal/api/gatewayapi/notify_group_cid_offer_supported.go:updateGatewaysSupportingGroupCIDOffer"]}
{"id": "C57", "title": "Published offers can be listed per gateway", "statement": "GetPublishedOffer returns, for the requested gateways, exactly the offers whose publication they confirmed, in order, and for an empty request those of all gateways.", "quantifier": "every history of publications", "why_tests_cant": "history-dependent", "anchors": ["provider/internal/api/adminapi/get_published_offer_handler.go", "provider/internal/api/providerapi/publish_group_offer_requester.go"]}
{"id": "C58", "title": "Client returns only verified offers", "statement": "Every offer returned by the client's discovery calls was verified against the registered key of its provider and has a valid Merkle proof.", "quantifier": "all gateway responses", "why_tests_cant": "adversarial responses", "anchors": ["client/pkg/fcrclient/filecoin_retrieval_client.go:FindOffersStandardDiscovery", "client/pkg/fcrclient/filecoin_retrieval_client.go:FindOffersStandardDiscoveryV2", "client/pkg/fcrclient/filecoin_retrieval_client.go:FindOffersDHTDiscovery", "client/pkg/fcrclient/filecoin_retrieval_client.go:FindOffersDHTDiscoveryV2"]}
{"id": "C59", "title": "Client respects its offer limit", "statement": "With a non-negative limit, discovery never asks for, pays for or returns more offers than the limit.", "quantifier": "all responses and limits", "why_tests_cant": "all lengths", "anchors": ["client/pkg/fcrclient/filecoin_retrieval_client.go:FindOffersStandardDiscoveryV2", "client/pkg/fcrclient/filecoin_retrieval_client.go:FindOffersDHTDiscoveryV2"]}
{"id": "C60", "title": "Client attributes offers to the right gateway", "statement": "The map returned by DHT discovery v2 gives for each gateway the offers that gateway returned.", "quantifier": "all responses with any number of gateways", "why_tests_cant": "needs two gateways with different offers", "anchors": ["client/pkg/fcrclient/filecoin_retrieval_client.go:FindOffersDHTDiscoveryV2"]}
{"id": "C61", "title": "Active gateways are usable gateways", "statement": "Every active gateway is in the list of gateways to use, was validated, and passed an establishment exchange; removing a gateway from use removes it from the active ones; the counts returned are the numbers actually added or removed.", "quantifier": "every sequential history of calls", "why_tests_cant": "history-dependent", "anchors": ["client/pkg/fcrclient/filecoin_retrieval_client.go:AddGatewaysToUse", "client/pkg/fcrclient/filecoin_retrieval_client.go:AddActiveGateways", "client/pkg/fcrclient/filecoin_retrieval_client.go:RemoveGatewaysToUse", "client/pkg/fcrclient/filecoin_retrieval_client.go:RemoveAllGatewaysToUse"]}
{"id": "C62", "title": "Top-up and pay pays exactly once", "statement": "topupAndPay issues exactly one voucher for the requested amount when it reports success and none when it fails, and makes at most two top-ups.", "quantifier": "all channel states and amounts", "why_tests_cant": "all balances", "anchors": ["client/pkg/fcrclient/filecoin_retrieval_client.go:topupAndPay", "gateway/internal/api/clientapi/dht_discover_handler_v2.go:topupAndPay"]}
{"id": "C63", "title": "Establishment proves the gateway's identity", "statement": "An establishment succeeds only if the response verifies under the gateway's registered key and echoes the fresh challenge and the gateway's id.", "quantifier": "all responses", "why_tests_cant": "adversarial responses", "anchors": ["client/pkg/api/clientapi/establishment_requester.go:RequestEstablishment"]}
{"id": "C64", "title": "Offer acknowledgements are checked", "statement": "FindDHTOfferAck reports true only if the provider-signed request contains the CID and the gateway-signed acknowledgement signs that request's body.", "quantifier": "all responses", "why_tests_cant": "adversarial responses", "anchors": ["client/pkg/fcrclient/filecoin_retrieval_client.go:FindDHTOfferAck"]}
{"id": "C65", "title": "Register service keeps the latest registration", "statement": "GetByID returns the last registration added for that id since the last delete-all, and the listing contains exactly one record per registered id.", "quantifier": "every history of add, get, list and delete-all", "why_tests_cant": "history-dependent", "anchors": ["register/internal/handlers/gateways_handler.go", "register/internal/handlers/providers_handler.go"]}
{"id": "C66", "title": "GetClosest returns everything when asked for more than is stored", "statement": "When fewer than num identifiers are stored, GetClosest(x,num,\"\") returns all of them.", "quantifier": "every well-formed ring, target and count", "why_tests_cant": "the miss depends on where the target lies relative to the smallest identifier", "anchors": ["common/pkg/dhtring/dhtring.go:Ring.GetClosest"]}
{"id": "C67", "title": "No request to generate a proof for a missing content succeeds", "statement": "Generating a Merkle proof, or a sub-offer, for a content that is not in the list reports an error.", "quantifier": "all lists and all non-members", "why_tests_cant": "absence ranges over all contents", "anchors": ["common/pkg/fcrmerkletree/tree.go:GenerateMerkleProof", "common/pkg/cidoffer/cidoffer.go:GenerateSubCIDOffer"]}
{"id": "C68", "title": "Verifying a received proof never crashes", "statement": "Verifying any proof obtained by decoding untrusted JSON returns true or false and does not crash.", "quantifier": "all byte strings", "why_tests_cant": "adversarial inputs", "anchors": ["common/pkg/fcrmerkletree/proof.go:VerifyContent", "common/pkg/fcrmerkletree/proof.go:UnmarshalJSON"]}
{"id": "C69", "title": "A non-positive listing limit lists nothing", "statement": "GetDHTOffersWithinRange with limit <= 0 returns no offers.", "quantifier": "all stores and ranges", "why_tests_cant": "boundary of an unbounded domain", "anchors": ["common/pkg/fcroffermgr/offer_manager.go:GetDHTOffersWithinRange"]}
{"id": "C70", "title": "Malformed keys and signatures are rejected without a crash", "statement": "Decoding any string as a key, or extracting the key version from any signature string, either succeeds or returns an error; it never crashes.", "quantifier": "all strings", "why_tests_cant": "adversarial inputs", "anchors": ["common/pkg/fcrcrypto/keypair_retrieval.go:DecodePublicKey", "common/pkg/fcrcrypto/msg_signing.go:ExtractKeyVersionFromMessage"]}
{"id": "C71", "title": "The key version of a signature is authenticated", "statement": "Changing the key version carried by a valid signature string makes it invalid.", "quantifier": "all signatures and versions", "why_tests_cant": "all modifications", "anchors": ["common/pkg/fcrcrypto/msg_signing.go:VerifyMessage"]}
{"id": "C72", "title": "Shutdown and restart of the register cache keeps it consistent", "statement": "After shutting the register cache down and starting it again the nearness ring and the gateway table hold the same identifiers.", "quantifier": "every history", "why_tests_cant": "history-dependent", "anchors": ["common/pkg/fcrregistermgr/register_manager.go:Shutdown", "common/pkg/fcrregistermgr/register_manager.go:GetGatewaysNearCID"]}
{"id": "C73", "title": "A publish request is accepted or refused as a whole", "statement": "If a publish request contains an offer that does not verify then none of its offers is stored.", "quantifier": "all offer lists and positions of the bad offer", "why_tests_cant": "all positions", "anchors": ["gateway/internal/api/providerapi/publish_dht_offer_handler.go:HandleProviderPublishDHTOfferRequest"]}
{"id": "C74", "title": "Listing acknowledgements never crashes the provider", "statement": "A gateway that lists DHT offers and acknowledges them never crashes the provider.", "quantifier": "every history", "why_tests_cant": "depends on whether the CID was published before", "anchors": ["provider/internal/api/gatewayapi/list_dht_offer_handler.go:HandleGatewayListDHTOfferRequest"]}
{"id": "C75", "title": "Any offer limit is handled", "statement": "Every discovery call of the client returns to its caller, with offers or an error, whatever limit it is given.", "quantifier": "every call, every integer limit, every gateway asked and every answer that reading does not reject", "why_tests_cant": "the limit is an unbounded integer and its boundary meets the answers of the gateways", "anchors": ["client/pkg/fcrclient/filecoin_retrieval_client.go:FindOffersDHTDiscoveryV2", "client/pkg/fcrclient/filecoin_retrieval_client.go:FindOffersStandardDiscoveryV2"]}
{"id": "C76", "title": "Gateway keeps its own funds safe", "statement": "A gateway spends from its own payment channels on behalf of a client only in requests for which it received at least the price.", "quantifier": "all requests", "why_tests_cant": "all amounts and states", "anchors": ["gateway/internal/api/clientapi/dht_discover_handler_v2.go:HandleClientDHTCIDDiscoverRequestV2", "gateway/internal/api/clientapi/dht_discover_offer_handler.go:HandleClientDHTDiscoverOfferRequest"]}
{"id": "C77", "title": "Offers accepted from a provider name that provider", "statement": "Every offer a gateway stores from a publish request names the publishing provider as its provider.", "quantifier": "all publish requests", "why_tests_cant": "adversarial providers", "anchors": ["gateway/internal/api/providerapi/publish_group_offer_handler.go:HandleProviderPublishGroupOfferRequest"]}
{"id": "C78", "title": "A voucher is only credited on the channel it names", "statement": "Receive credits a voucher only when it is presented on the payment channel named inside the voucher.", "quantifier": "all vouchers, channels and histories", "why_tests_cant": "Tests present vouchers on the channel they were issued for; the claim is about every other channel of the same payer.", "anchors": ["common/pkg/fcrpaymentmgr/payment_manager.go:Receive"]}
{"id": "C79", "title": "Receive never crashes", "statement": "Receive returns a value or an error, and does not crash the process, for every channel address and voucher a peer can send.", "quantifier": "all addresses, vouchers, chain states", "why_tests_cant": "Addresses come from untrusted peers; the set is unbounded.", "anchors": ["common/pkg/fcrpaymentmgr/payment_manager.go:Receive"]}
{"id": "C80", "title": "Pay refuses negative amounts", "statement": "Pay issues no voucher for a negative amount, so that the total promised never exceeds what was funded whatever amounts are asked for.", "quantifier": "all histories and amounts", "why_tests_cant": "Needs all histories mixing signs.", "anchors": ["common/pkg/fcrpaymentmgr/payment_manager.go:Pay"]}
{"id": "C81", "title": "Only authentic vouchers are credited", "statement": "Receive credits a voucher only if its signature verifies under the on-chain payer of the channel it is presented on and that channel pays the receiving manager.", "quantifier": "all histories, vouchers and chain states", "why_tests_cant": "Universally quantified over adversarial vouchers.", "anchors": ["common/pkg/fcrpaymentmgr/payment_manager.go:Receive"]}
{"id": "C82", "title": "Credited vouchers come in nonce order", "statement": "On each channel and lane, once a voucher with nonce n has been credited, Receive credits no voucher with nonce n or lower (nonces below the uint64 maximum).", "quantifier": "all histories of Receive with adversarial vouchers and chain views", "why_tests_cant": "Histories are unbounded.", "anchors": ["common/pkg/fcrpaymentmgr/payment_manager.go:Receive"]}
{"id": "C83", "title": "Converting lists of identifier strings does not crash", "statement": "Converting a list of strings to content or node identifiers (as done when decoding an offer or one of the discovery, publish and admin messages) either returns the identifiers or reports an error, whatever the strings are; strings produced by the library convert back to the same identifiers.", "quantifier": "all lists of strings", "why_tests_cant": "must hold for every list an unauthenticated peer can send", "anchors": ["common/pkg/cid/cid.go:MapStringToCID", "common/pkg/nodeid/nodeid.go:MapStringToNodeID", "common/pkg/cidoffer/cidoffer.go:UnmarshalJSON", "common/pkg/fcrmessages/client_dht_discover_response_v2.go:DecodeClientDHTDiscoverResponseV2"]}
{"id": "C84", "title": "Expiry is exact for every expiry value", "statement": "HasExpired reports true exactly when the expiry (in seconds since 1970) lies before the current time, for every value of the expiry field.", "quantifier": "all 64-bit expiry values and all times", "why_tests_cant": "ranges over the full 64-bit range, including values where the clock arithmetic wraps", "anchors": ["common/pkg/cidoffer/cidoffer.go:HasExpired", "common/pkg/cidoffer/subcidoffer.go:HasExpired"]}
{"id": "C85", "title": "Offers that decode can be used without a crash", "statement": "Verifying, digesting or re-encoding an offer or sub-offer that was decoded without an error returns a value or an error and does not crash the process.", "quantifier": "all JSON values a peer can send", "why_tests_cant": "ranges over all inputs of the decoder", "anchors": ["common/pkg/cidoffer/cidoffer.go:UnmarshalJSON", "common/pkg/cidoffer/cidoffer.go:Verify", "common/pkg/cidoffer/subcidoffer.go:UnmarshalJSON", "common/pkg/cidoffer/subcidoffer.go:VerifyMerkleProof"]}
{"id": "C86", "title": "A node identifier made from a key identifies the key", "statement": "The identifier made from a key pair depends on the public key only (it is the same for the pair and for its public part), two keys with the same identifier have the same public key unless the hash collides, and a signature made with the private key is accepted when verified against the identifier.", "quantifier": "all keys, messages and signatures", "why_tests_cant": "ranges over all key pairs", "anchors": ["common/pkg/nodeid/nodeid.go:NewNodeIDFromPublicKey", "common/pkg/fcrcrypto/keypair_retrieval.go:HashPublicKey", "common/pkg/fcrcrypto/keypair_retrieval.go:RetrievalV1Verify"]}
{"id": "C87", "title": "Group offers and DHT offers are kept apart in the gateway's store", "statement": "The group-offer lookups of the gateway's offer store list exactly the offers that were added as group offers, and the DHT-offer lookups, in particular the range listing, list exactly the offers that were added as DHT offers.", "quantifier": "all histories of adds and all lookups", "why_tests_cant": "ranges over all histories of adds and lookups", "anchors": ["common/pkg/offermgr/offer_manager.go:GetGroupOffers", "common/pkg/offermgr/offer_manager.go:GetDHTOffers", "common/pkg/offermgr/offer_manager.go:GetDHTOffersWithinRange", "common/pkg/offermgr/offer_manager.go:AddGroupOffer", "common/pkg/offermgr/offer_manager.go:AddDHTOffer"]}
{"id": "C88", "title": "Adding an offer to the gateway's store is all or nothing", "statement": "After a crash at any point of an add, or after an add during which the database failed, the store holds either the whole offer or nothing of it, lookups do not crash, and an add that reports success has stored every content of the offer.", "quantifier": "all offers, stores, crash points and failing statements", "why_tests_cant": "ranges over all crash points and failure patterns", "anchors": ["common/pkg/offermgr/offer_manager.go:insertOffer", "common/pkg/offermgr/offer_manager.go:selectOffers"]}
{"id": "C89", "title": "Decoding a message never crashes", "statement": "Whatever bytes a peer sends, decoding the message kind they announce returns values or an error; it never terminates the process.", "quantifier": "all received byte strings and all message kinds", "why_tests_cant": "the space of malformed messages is unbounded; the crashing inputs are well-formed JSON with one bad string", "anchors": ["common/pkg/fcrmessages/*.go:Decode*", "common/pkg/nodeid/nodeid.go:MapStringToNodeID", "common/pkg/cid/cid.go:MapStringToCID", "common/pkg/cidoffer/cidoffer.go:UnmarshalJSON", "common/pkg/fcrcrypto/keypair_retrieval.go:DecodePrivateKey"]}
{"id": "C90", "title": "A pause in the middle of a message does not lose messages", "statement": "If the read deadline passes while a message is arriving, a receiver that keeps reading (as the server loop does) still gets that message and all later ones.", "quantifier": "every message, every position and number of pauses", "why_tests_cant": "depends on when bytes arrive relative to deadlines, at every cut point", "anchors": ["common/pkg/fcrp2pserver/tcp_comms.go:readTCPMessage", "common/pkg/fcrp2pserver/server.go:handleIncomingConnection"]}
{"id": "C91", "title": "Stopping a node leaves other nodes registered", "statement": "Shutting down the register cache of one node does not remove other nodes' registrations from the register.", "quantifier": "every register content and every node state", "why_tests_cant": "tests use one node and a mock register; the claim is about every content registered by others", "anchors": ["common/pkg/fcrregistermgr/register_manager.go:Shutdown", "common/pkg/fcrregistermgr/register_manager.go:ShutdownAndWait", "common/pkg/fcrregistermgr/register_manager.go:shutdownGateways", "common/pkg/fcrregistermgr/register_manager.go:removeAllGatewaysFromRegisterSrv", "register/internal/handlers/gateways_handler.go:DeleteGatewayRegisters"]}
{"id": "C92", "title": "No register answer crashes a node", "statement": "Whatever the register answers to a listing, the update routines of a node process it and go on.", "quantifier": "every answer and every history of answers", "why_tests_cant": "the space of answers is unbounded; a single null element suffices to break it", "anchors": ["common/pkg/fcrregistermgr/register_manager.go:pullGatewaysFromRegisterSrv", "common/pkg/fcrregistermgr/register_manager.go:pullProvidersFromRegisterSrv", "common/pkg/fcrregistermgr/register_manager.go:updateGateways", "common/pkg/fcrregistermgr/register_manager.go:updateProviders"]}
{"id": "C93", "title": "A gateway's CID range contains its own position", "statement": "The range GetGatewayCIDRange returns for a gateway is an arc of the ring that contains the gateway's own identifier, so that the offers it is responsible for are the ones it asks providers for.", "quantifier": "every set of registered gateways and every gateway among them", "why_tests_cant": "depends on the number and position of all gateways", "anchors": ["common/pkg/fcrregistermgr/register_manager.go:GetGatewayCIDRange", "common/pkg/fcrregistermgr/register_manager.go:GetGatewaysNearCID", "common/pkg/dhtring/dhtring.go:GetClosest"]}
{"id": "C94", "title": "Nearness lookups do not disturb one another", "statement": "A lookup of the gateways nearest to a CID that succeeds when nothing else runs also succeeds, with the same gateways, when other such lookups run at the same time.", "quantifier": "every interleaving of lookups, every set of gateways and CIDs", "why_tests_cant": "needs two requests inside a short window; the lookup changes shared state under a read lock", "anchors": ["common/pkg/fcrregistermgr/register_manager.go:GetGatewaysNearCID", "common/pkg/dhtring/dhtring.go:GetClosest"]}
{"id": "C95", "title": "Reputation events are not lost", "statement": "When several threads report events and challenges for clients at the same time, the reputations at the end are those after the same calls made one after the other in some order.", "quantifier": "every interleaving of any number of threads and calls", "why_tests_cant": "lost updates need a precise interleaving", "anchors": ["gateway/internal/reputation/reputation.go:ClientEstablishmentChallenge", "gateway/internal/reputation/reputation_store.go:changeClientReputation"]}
{"id": "C96", "title": "An administrator's reputation setting takes effect", "statement": "After the administrator sets a client's reputation, reading it answers that value.", "quantifier": "every history of requests and every client", "why_tests_cant": "concerns every history, and that no other part of the gateway creates entries", "anchors": ["gateway/internal/api/adminapi/set_client_reputation_handler.go:HandleGatewayAdminSetReputationRequest", "gateway/internal/api/adminapi/get_client_reputation_handler.go:HandleGatewayAdminGetReputationRequest"]}
{"id": "C97", "title": "No message from the network crashes a gateway", "statement": "Whatever message arrives from a peer gateway or a provider, the gateway process goes on running: the message is answered or refused.", "quantifier": "every gateway state and every message", "why_tests_cant": "the space of messages is unbounded; one malformed identifier suffices", "anchors": ["gateway/internal/api/gatewayapi/dht_discover_handler.go:HandleGatewayDHTDiscoverRequest", "gateway/internal/api/gatewayapi/dht_discover_handler_v2.go:HandleGatewayDHTDiscoverRequestV2", "gateway/internal/api/providerapi/publish_dht_offer_handler.go:HandleProviderPublishDHTOfferRequest", "common/pkg/fcrregistermgr/register_manager.go:GetGateway"]}
{"id": "C98", "title": "An acknowledged publish is in the store", "statement": "When a gateway acknowledges the publish request of a provider, or takes over a list of offers from a provider and acknowledges its messages, every offer in it is stored from then on; and a later search finds it until it expires.", "quantifier": "every publish request and every history of requests", "why_tests_cant": "quantifies over all offers, positions and later histories", "anchors": ["gateway/internal/api/providerapi/publish_dht_offer_handler.go:HandleProviderPublishDHTOfferRequest", "gateway/internal/api/providerapi/publish_group_offer_handler.go:HandleProviderPublishGroupOfferRequest", "gateway/internal/api/gatewayapi/list_dht_offer_requester.go:RequestListCIDOffer"]}
{"id": "C99", "title": "A gateway relays only authenticated answers of the gateways it asked", "statement": "In the answer to a client's DHT discovery (of either version, or for offers) every gateway that was to be asked is listed exactly once, as contacted or as not reachable; for each contacted one the relayed message is what that gateway answered when asked in this very request and verifies under its registered signing key.", "quantifier": "all requests, all answers of the network, all registers, all states of the gateway", "why_tests_cant": "Ranges over every request, register content and every answer (or silence) of every peer.", "anchors": ["gateway/internal/api/clientapi/dht_discover_handler.go:HandleClientDHTCIDDiscoverRequest", "gateway/internal/api/clientapi/dht_discover_handler_v2.go", "gateway/internal/api/clientapi/dht_discover_offer_handler.go", "gateway/internal/api/gatewayapi/dht_discover_requester.go"]}
{"id": "C100", "title": "Whoever pays is answered", "statement": "A discovery request whose voucher is credited with the full price, and which did not arrive late, is answered by a signed message.", "quantifier": "every gateway state, request and voucher", "why_tests_cant": "depends on which offers are still held when the request arrives", "anchors": ["gateway/internal/api/clientapi/standard_discover_offer_handler.go:HandleClientStandardDiscoverOfferRequest", "gateway/internal/api/gatewayapi/dht_discover_offer_handler.go:HandleGatewayDHTOfferRequest"]}
{"id": "C101", "title": "The group-offer setting takes effect and is confirmed", "statement": "When the admin sets the providers whose group offers a gateway supports, the gateway stores the setting, tells those providers, and the call reports success.", "quantifier": "all gateway states, all lists of providers, all registers", "why_tests_cant": "ranges over all states of the gateway and all provider lists", "anchors": ["gateway/internal/api/adminapi/set_group_cid_support.go:HandleGatewayAdminUpdateGatewayGroupCIDOfferSupportRequest", "gateway-admin/pkg/fcrgatewayadmin/filecoin-gateway-admin.go:UpdateGatewaySupportedFeatures"]}
{"id": "C102", "title": "Peers are paid what they ask", "statement": "When a gateway relays a request for offers, the voucher sent to each peer raises what that peer may redeem by the price of the offers asked of it.", "quantifier": "every request, number of offers, price and state of the payment channels", "why_tests_cant": "depends on the state of the channel: only the path through a top-up differs", "anchors": ["gateway/internal/api/clientapi/dht_discover_offer_handler.go:HandleClientDHTDiscoverOfferRequest"]}
{"id": "C103", "title": "Nobody crashes a provider from the network", "statement": "No message that a peer can send to the peer-to-peer interface of a provider makes one of its handlers panic.", "quantifier": "every provider state and every message, signed or not", "why_tests_cant": "the messages are chosen by an adversary", "anchors": ["provider/internal/api/gatewayapi/list_dht_offer_handler.go:HandleGatewayListDHTOfferRequest", "provider/internal/api/gatewayapi/notify_group_cid_offer_supported.go:HandleGatewayNotifyProviderGroupCIDOfferSupportRequest"]}
{"id": "C104", "title": "DHT offers go to the gateways near their CID", "statement": "When an admin has published a batch of DHT offers with success, the offer for each CID was sent to every gateway near that CID, and to no other gateway.", "quantifier": "every batch, history, set of registered gateways and behaviour of the gateways", "why_tests_cant": "depends on the positions of all CIDs and gateways and on which gateways fail", "anchors": ["provider/internal/api/adminapi/publish_dht_offer_handler.go:HandleProviderAdminPublishDHTOfferRequest", "provider/internal/api/providerapi/publish_dht_offer_requester.go:RequestProviderPublishDHTOffer"]}
{"id": "C105", "title": "A provider acts for registered gateways only", "statement": "A provider lists its DHT offers to a gateway, and takes note of a gateway's support for group offers, only if the request is signed with the registered key of the gateway that it names.", "quantifier": "every provider state and every message", "why_tests_cant": "the messages are chosen by an adversary", "anchors": ["provider/internal/api/gatewayapi/list_dht_offer_handler.go:HandleGatewayListDHTOfferRequest", "provider/internal/api/gatewayapi/notify_group_cid_offer_supported.go:HandleGatewayNotifyProviderGroupCIDOfferSupportRequest"]}
{"id": "C106", "title": "Group offers go to every gateway", "statement": "When an admin publishes a group offer, it is sent to every registered gateway, whatever the other gateways do.", "quantifier": "every offer, history, set of registered gateways and behaviour of the gateways", "why_tests_cant": "depends on the records and the behaviour of all the other gateways", "anchors": ["provider/internal/api/adminapi/publish_group_offer_handler.go:HandleProviderAdminPublishGroupOfferRequest", "provider/internal/api/providerapi/publish_group_offer_requester.go:RequestProviderPublishGroupOffer"]}
{"id": "C107", "title": "What a provider sends is signed with the key set last", "statement": "Every message that a provider answers or sends carries a signature which verifies under the public key matching the private key that its admin set last, with the version the admin gave.", "quantifier": "every history of requests, every request and every answer of other nodes", "why_tests_cant": "ranges over all histories, including those which set several keys", "anchors": ["provider/internal/api/adminapi/initialise_key_handler.go:HandleProviderAdminInitialiseKeyRequest", "provider/internal/core/core.go:Core", "common/pkg/fcrmessages/fcrmessage.go:Sign"]}
{"id": "C108", "title": "A provider does nothing for its admin before it has a key", "statement": "Until its admin has set the key a provider answers every other admin request with the status 400 and changes nothing. Setting the key takes effect at once, is confirmed under the new key and changes nothing else; the registers are refreshed exactly when the admin asks for it.", "quantifier": "every history of requests and every request", "why_tests_cant": "ranges over all histories and messages", "anchors": ["provider/internal/api/adminapi/initialise_key_handler.go:HandleProviderAdminInitialiseKeyRequest", "provider/internal/api/adminapi/force_refresh_handler.go:HandleProviderAdminForceRefreshRequest", "provider/internal/api/adminapi/publish_dht_offer_handler.go:HandleProviderAdminPublishDHTOfferRequest"]}
{"id": "C109", "title": "FindGateways respects its arguments", "statement": "FindGateways returns at most the requested number of gateways, all of them registered in the requested region, and with a sufficient maximum all of them.", "quantifier": "all register contents, regions and maxima", "why_tests_cant": "boundary of the maximum, including zero and negative", "anchors": ["client/pkg/fcrclient/filecoin_retrieval_client.go:FindGateways"]}
{"id": "C110", "title": "Served discovery returns the gateway's offers", "statement": "When payments succeed and the gateway answers, discovery returns exactly those of the offers in the answers that verify, up to the limit; from a gateway running this code these are the offers it holds for the CID.", "quantifier": "all offers, prices, limits, gateway states and honest answers", "why_tests_cant": "composition of two programs over all states", "anchors": ["client/pkg/fcrclient/filecoin_retrieval_client.go:FindOffersStandardDiscovery", "client/pkg/fcrclient/filecoin_retrieval_client.go:FindOffersStandardDiscoveryV2", "client/pkg/fcrclient/filecoin_retrieval_client.go:FindOffersDHTDiscovery", "client/pkg/fcrclient/filecoin_retrieval_client.go:FindOffersDHTDiscoveryV2"]}
{"id": "C111", "title": "Concurrent calls on one client neither deadlock nor activate an unchecked gateway", "statement": "When several calls that add, activate, deactivate or drop gateways run at the same time on one client, every one of them returns, whatever the interleaving: there is no deadlock and no endless run. A gateway that is active afterwards was looked up, found complete and established by one of these calls, and an active gateway is one of the gateways in use. A call that runs alone does what it does without concurrency.", "quantifier": "every number of concurrent calls, every list of identifiers each gets, every interleaving of their steps, and every registry and network at each step", "why_tests_cant": "A test exercises one interleaving; the window in which a gateway is activated while it is dropped, and the absence of a deadlock, are about all interleavings.", "anchors": ["client/pkg/fcrclient/filecoin_retrieval_client.go:AddGatewaysToUse", "client/pkg/fcrclient/filecoin_retrieval_client.go:RemoveGatewaysToUse", "client/pkg/fcrclient/filecoin_retrieval_client.go:RemoveAllGatewaysToUse", "client/pkg/fcrclient/filecoin_retrieval_client.go:AddActiveGateways", "client/pkg/fcrclient/filecoin_retrieval_client.go:RemoveActiveGateways", "client/pkg/fcrclient/filecoin_retrieval_client.go:RemoveAllActiveGateways"]}
{"id": "C112", "title": "No answer crashes the client", "statement": "Whatever a gateway or a provider answers, a call of the client returns with a result or an error; it does not crash the process.", "quantifier": "every answer, signed or not, to every call", "why_tests_cant": "ranges over all texts an adversary may send", "anchors": ["client/pkg/fcrclient/filecoin_retrieval_client.go:FindOffersStandardDiscovery", "client/pkg/fcrclient/filecoin_retrieval_client.go:FindDHTOfferAck", "client/pkg/api/clientapi/standard_discover_requester.go:RequestStandardDiscover", "client/pkg/api/clientapi/establishment_requester.go:RequestEstablishment"]}
{"id": "C113", "title": "The client pays only the gateway it asks, at the configured prices", "statement": "A discovery call pays nobody but the gateway asked: the configured search price (again only if the gateway says payment is required) and the configured price for each offer requested, at most the limit.", "quantifier": "all settings, gateways' answers, limits and payment states", "why_tests_cant": "ranges over all answers of a possibly dishonest gateway", "anchors": ["client/pkg/fcrclient/filecoin_retrieval_client.go:FindOffersStandardDiscoveryV2", "client/pkg/fcrclient/filecoin_retrieval_client.go:FindOffersDHTDiscoveryV2", "common/pkg/fcrpaymentmgr/payment_manager.go:Pay"]}
{"id": "C114", "title": "Success means the gateway answered this request", "statement": "A discovery call returns without an error only if the gateway asked sent a signed answer to this very request: for the CID and with the nonce of the request.", "quantifier": "all answers, lost answers and replays", "why_tests_cant": "ranges over all answers and network failures", "anchors": ["client/pkg/fcrclient/filecoin_retrieval_client.go:FindOffersStandardDiscovery", "client/pkg/fcrclient/filecoin_retrieval_client.go:FindOffersStandardDiscoveryV2", "client/pkg/fcrclient/filecoin_retrieval_client.go:FindOffersDHTDiscovery", "client/pkg/fcrclient/filecoin_retrieval_client.go:FindOffersDHTDiscoveryV2"]}
{"id": "C115", "title": "Returned offers are for the CID asked and unexpired", "statement": "Every offer returned by a discovery call is for the CID the user asked for and has not expired.", "quantifier": "all gateways' answers and all stored offers", "why_tests_cant": "ranges over all answers, and all database contents of an honest gateway", "anchors": ["client/pkg/fcrclient/filecoin_retrieval_client.go:FindOffersStandardDiscovery", "client/pkg/fcrclient/filecoin_retrieval_client.go:FindOffersStandardDiscoveryV2"]}
{"id": "C116", "title": "Setting up a gateway is reported faithfully", "statement": "A call that sets up a gateway reports success exactly when the gateway has taken over the identifier, key and wallet; a call that reports failure leaves the gateway as it was.", "quantifier": "all gateway states, keys, records and wallets", "why_tests_cant": "ranges over all states before the call and all keys, matching the record or not", "anchors": ["gateway-admin/pkg/fcrgatewayadmin/filecoin-gateway-admin.go:InitialiseGateway", "gateway-admin/pkg/fcrgatewayadmin/filecoin-gateway-admin.go:InitialiseGatewayV2", "gateway/internal/api/adminapi/initialise_key_handler.go:HandleGatewayAdminInitialiseKeyRequest", "gateway/internal/api/adminapi/initialise_key_handler_v2.go:HandleGatewayAdminInitialiseKeyRequestV2"]}
{"id": "C117", "title": "Only the admin can change a node", "statement": "A gateway or provider changes its identifier, its key or any other state on an admin message only if the message is signed by its admin.", "quantifier": "all nodes, all states, all messages and signatures", "why_tests_cant": "ranges over all messages an attacker can send", "anchors": ["gateway/internal/api/adminapi", "provider/internal/api/adminapi", "gateway/cmd/gateway/main.go:main"]}
{"id": "C118", "title": "A voucher is credited once over the whole life of a gateway", "statement": "A gateway credits a voucher at most once, whatever its admin does in between.", "quantifier": "all histories of payments and admin requests", "why_tests_cant": "ranges over histories that interleave payments with admin requests", "anchors": ["gateway/internal/api/adminapi/initialise_key_handler_v2.go:HandleGatewayAdminInitialiseKeyRequestV2", "common/pkg/fcrpaymentmgr/payment_manager.go:Receive"]}
{"id": "C119", "title": "Success of an admin call means that the node carried it out", "statement": "When a call of an admin library succeeds, the node of the record has received this very request and has carried it out.", "quantifier": "all calls, all records and all behaviours of the network", "why_tests_cant": "ranges over everything the network can answer, replays included", "anchors": ["gateway-admin/pkg/api/adminapi", "provider-admin/pkg/api/adminapi"]}
{"id": "C120", "title": "Private keys are secret in transit", "statement": "Whoever sees the messages between an admin and a node does not learn the private key of the node or of its wallet.", "quantifier": "all keys, wallets and records", "why_tests_cant": "a claim about everything an observer can compute", "anchors": ["common/pkg/fcrmessages/gatewayadmin_initialise_key_request.go:EncodeGatewayAdminInitialiseKeyRequest", "common/pkg/fcrmessages/provideradmin_initialise_key_request.go:EncodeProviderAdminInitialiseKeyRequest", "common/pkg/request/request.go:SendJSON"]}
{"id": "C121", "title": "Reputations are read and set as asked", "statement": "Reading a client's reputation returns the value the gateway has and changes nothing; setting it makes it that value and leaves every other client's alone; both are errors for an unknown client.", "quantifier": "all gateway states, clients and values", "why_tests_cant": "ranges over all reputation tables and values", "anchors": ["gateway-admin/pkg/api/adminapi/get_reputation_requester.go:RequestGetReputation", "gateway-admin/pkg/api/adminapi/set_reputation_requester.go:RequestSetReputation", "gateway/internal/api/adminapi/get_client_reputation_handler.go:HandleGatewayAdminGetReputationRequest", "gateway/internal/api/adminapi/set_client_reputation_handler.go:HandleGatewayAdminSetReputationRequest"]}
{"id": "C122", "title": "Listing the offers of providers fills the gateway", "statement": "When the admin's call to list DHT offers succeeds, the gateway afterwards serves every unexpired DHT offer in its CID range that a registered provider holds.", "quantifier": "all gateways, registers, providers, provider histories and network outcomes", "why_tests_cant": "ranges over every history of every provider and every failure of the network between them", "anchors": ["gateway/internal/api/adminapi/list_dht_offer_handler.go:HandleGatewayAdminListDHTOffersRequest", "gateway/internal/api/adminapi/list_dht_offer_handler.go:requestProvider", "gateway-admin/pkg/api/adminapi/list_dht_offer_requester.go:RequestListDHTOffer"]}
{"id": "C123", "title": "An admin works with the nodes it has set up", "statement": "A node is in use by an admin exactly if a call that sets it up has succeeded; calls to other nodes send nothing, and calls to these reach them.", "quantifier": "all histories of calls, all records", "why_tests_cant": "ranges over all call histories and all ways of writing an identifier in a record", "anchors": ["gateway-admin/pkg/fcrgatewayadmin/filecoin-gateway-admin.go:FilecoinRetrievalGatewayAdmin", "provider-admin/pkg/fcrprovideradmin/filecoin_provider_admin.go:FilecoinRetrievalProviderAdmin"]}
{"id": "C124", "title": "Setting up a provider is reported faithfully", "statement": "A call that sets up a provider reports success exactly when the provider has taken over the identifier and the key; a call that reports failure leaves the provider as it was. Refreshing is carried out when success is reported.", "quantifier": "all provider states, keys, records and wallets", "why_tests_cant": "ranges over all states before the call and all keys, matching the record or not", "anchors": ["provider-admin/pkg/fcrprovideradmin/filecoin_provider_admin.go:InitialiseProvider", "provider-admin/pkg/fcrprovideradmin/filecoin_provider_admin.go:InitialiseProviderV2", "provider-admin/pkg/fcrprovideradmin/filecoin_provider_admin.go:ForceUpdate", "provider/internal/api/adminapi/initialise_key_handler.go:HandleProviderAdminInitialiseKeyRequest"]}
{"id": "C125", "title": "A successful publication has reached the gateways", "statement": "When the admin's call that publishes offers succeeds, the provider has made offers with exactly the terms given, and every gateway that should hold them has accepted them.", "quantifier": "all histories of the provider, all terms, all registers and all behaviours of the gateways", "why_tests_cant": "ranges over all sets of gateways, reachable or not, and all terms", "anchors": ["provider-admin/pkg/fcrprovideradmin/filecoin_provider_admin.go:PublishGroupCID", "provider-admin/pkg/fcrprovideradmin/filecoin_provider_admin.go:PublishDHTCID", "provider/internal/api/adminapi/publish_group_offer_handler.go:HandleProviderAdminPublishGroupOfferRequest", "provider/internal/api/adminapi/publish_dht_offer_handler.go:HandleProviderAdminPublishDHTOfferRequest"]}
{"id": "C126", "title": "The admin sees what the gateways confirmed", "statement": "The list of published offers that the admin gets contains, for each gateway asked for, exactly the offers this gateway confirmed, in order; asked for no gateway in particular, those of all.", "quantifier": "all histories of the provider and all lists of gateways", "why_tests_cant": "ranges over all histories of publications", "anchors": ["provider-admin/pkg/fcrprovideradmin/filecoin_provider_admin.go:GetGroupCIDOffer", "provider/internal/api/adminapi/get_published_offer_handler.go:HandleProviderAdminGetPublishedOfferRequest"]}
{"id": "C127", "title": "Random bytes never repeat", "statement": "No two whole blocks of 32 bytes handed out by one random generator over its life are equal (short of a collision of the message digest), whatever the inner deterministic generator produces, whatever seeds are mixed in, and however many goroutines read from it.", "quantifier": "every digest, every inner generator, every history of reads of any length and reseedings, every schedule of concurrent readers", "why_tests_cant": "A test compares two blocks; the property is about every pair over an unbounded history and every interleaving.", "anchors": ["common/pkg/fcrcrypto/prng.go: ReadBytes", "common/pkg/fcrcrypto/prng.go: Reseed", "common/pkg/fcrcrypto/prng.go: NewPRNG"]}
{"id": "C128", "title": "Identifiers made at random are different", "statement": "The node and content identifiers that a process creates at random have 32 bytes and are all different, and key pairs generated by different goroutines are different.", "quantifier": "every number of identifiers, every schedule of concurrent calls", "why_tests_cant": "A schedule in which two goroutines interleave inside the generator is not reproducible in a unit test.", "anchors": ["common/pkg/nodeid/nodeid.go: NewRandomNodeID", "common/pkg/cid/cid.go: NewRandomContentID", "common/pkg/fcrcrypto/prng_public.go: GeneratePublicRandomBytes", "common/pkg/fcrcrypto/secp256k1.go: secp256k1GenerateKey"]}
{"id": "C129", "title": "Random reads fill the buffer, generated keys are valid", "statement": "Reading random bytes overwrites every byte of the buffer, whatever its length and contents; every generated private key is a 32-byte number between 1 and the order of the curve minus one, and can be written out and read again.", "quantifier": "every buffer, every state of the generator", "why_tests_cant": "The last partial block and leading zero bytes of keys depend on the length and on rare values.", "anchors": ["common/pkg/fcrcrypto/prng.go: ReadBytes", "common/pkg/fcrcrypto/secp256k1.go: secp256k1GenerateKeyFromSeed", "common/pkg/fcrcrypto/keypair_retrieval.go: GenerateRetrievalV1KeyPair"]}
{"id": "C130", "title": "Random output survives a compromised inner generator", "statement": "As the package comment promises, the output stays unpredictable even if the inner deterministic generator is known to an attacker: bytes already handed out do not determine the bytes that follow.", "quantifier": "every digest, every inner generator, every state, every continuation", "why_tests_cant": "Unpredictability is a statement about two executions with different secrets, not about one output.", "anchors": ["common/pkg/fcrcrypto/prng.go: ReadBytes", "common/pkg/fcrcrypto/prng.go: NewPRNG"]}
{"id": "C131", "title": "An entropy kick reaches every generator", "statement": "A call of the entropy kick mixes a reading of the clock into the private, the public and every separately created private generator that exists, exactly once each, and different readings lead to different states.", "quantifier": "every history of creating, reading and kicking, every schedule of concurrent creations", "why_tests_cant": "The pool is an unlocked package variable; losing an entry depends on the schedule.", "anchors": ["common/pkg/fcrcrypto/prng_pool.go: PRNGEntropyKick", "common/pkg/fcrcrypto/prng_private.go: NewPrivatePRNG", "common/pkg/fcrcrypto/prng_private.go: GetPrivatePRNG", "common/pkg/fcrcrypto/prng_public.go: GetPublicPRNG"]}
{"id": "C132", "title": "Challenges carry 32 random bytes", "statement": "A random challenge is 44 characters of base64 and determines the 32 random bytes it was made from, so different random bytes give different challenges.", "quantifier": "every 32 random bytes", "why_tests_cant": "Tests see a few challenges.", "anchors": ["common/pkg/challenge/challenge.go: NewRandomChallenge"]}
{"id": "C133", "title": "A forced refresh refreshes the register and nothing else", "statement": "When the admin forces a refresh on a gateway it can reach, the call succeeds, the gateway refreshes its copy of the register, and nothing else of the gateway's state changes.", "quantifier": "all gateways and states", "why_tests_cant": "ranges over all states of a gateway", "anchors": ["gateway/internal/api/adminapi/force_refresh_handler.go:HandleGatewayAdminForceRefreshRequest", "gateway-admin/pkg/api/adminapi/force_refresh_requester.go:RequestForceRefresh"]}
{"id": "C134", "title": "What a provider publishes, a client finds", "statement": "When the admin of a provider publishes an offer and the call succeeds, every gateway in the register of the provider (for a DHT offer: every gateway near one of its CIDs) was sent a request such that, if the gateway is up, knows the provider and can store when it arrives, the gateway acknowledges it, and from then on, whatever else it serves before and after, every client using that gateway finds an offer of this provider with these terms for every CID of the offer until the offer expires. If nobody else publishes in the name of the provider, all offers of this provider that the client gets are genuine.", "quantifier": "all histories of the provider and of the gateway, all offers with price and quality of service below 2^63 and expiry up to the year 9999, all CIDs of an offer, all clients", "why_tests_cant": "Ranges over all histories of three programs and all offers; a test follows one offer.", "anchors": ["provider-admin/pkg/api/adminapi/publish_group_offer_requester.go", "provider/internal/api/adminapi/publish_group_offer_handler.go", "provider/internal/api/adminapi/publish_dht_offer_handler.go", "gateway/internal/api/providerapi/publish_group_offer_handler.go:HandleProviderPublishGroupOfferRequest", "gateway/internal/api/providerapi/publish_dht_offer_handler.go:HandleProviderPublishDHTOfferRequest", "gateway/internal/api/clientapi/standard_discover_handler.go"]}
{"id": "C135", "title": "Others cannot displace a provider's offer", "statement": "Once a gateway has acknowledged an offer of a provider, a client using the gateway finds a genuine copy of it until it expires, whatever other registered providers publish.", "quantifier": "all histories of the gateway, including requests of other providers", "why_tests_cant": "Ranges over what hostile providers publish and in which order.", "anchors": ["gateway/internal/api/providerapi/publish_group_offer_handler.go:HandleProviderPublishGroupOfferRequest", "common/pkg/cidoffer/cidoffer.go:GetMessageDigest", "gateway/internal/api/clientapi/standard_discover_handler.go"]}
{"id": "C136", "title": "Configured prices are the prices", "statement": "The search price, the offer price and the top-up amount that a gateway or provider runs with are the numbers written in its configuration, and the documented defaults if the configuration has no number; a text that is not a number is not taken for another number.", "quantifier": "all configurations, that is all texts of the variables", "why_tests_cant": "Ranges over all texts, of any length; tests use a few numbers.", "anchors": ["gateway/config/config.go:Map", "provider/config/config.go:Map"]}
{"id": "C137", "title": "Configured durations are the durations", "statement": "The inactivity timeouts of connections and the interval for asking the register that a running gateway or provider uses are the durations written in its configuration, and the documented defaults if there are none.", "quantifier": "all configurations, that is all texts of the variables", "why_tests_cant": "Ranges over all texts and over the whole start-up, which unit tests do not run.", "anchors": ["gateway/config/config.go:Map", "provider/config/config.go:Map", "gateway/cmd/gateway/main.go:main", "provider/cmd/provider/main.go:main"]}
{"id": "C138", "title": "Each port serves only its own API", "statement": "A running gateway whose ports differ serves the requests of clients, of the admin, of gateways and of providers each at its own port and refuses them at the others; so does a provider for clients, the admin and gateways.", "quantifier": "all settings with different ports, all requests", "why_tests_cant": "Ranges over all message types at all ports; tests send a few expected messages to the right port.", "anchors": ["gateway/cmd/gateway/main.go:main", "provider/cmd/provider/main.go:main", "common/pkg/fcrrestserver/server.go:AddHandler", "common/pkg/fcrp2pserver/server.go:AddHandler"]}
{"id": "C139", "title": "A node that has started listens on all its ports", "statement": "A gateway or provider that reports the end of its start-up listens on every configured port; if a port cannot be used, it stops instead.", "quantifier": "all settings, all sets of ports that are taken by others", "why_tests_cant": "Ranges over which ports are taken; tests start nodes with free ports.", "anchors": ["gateway/cmd/gateway/main.go:main", "provider/cmd/provider/main.go:main", "common/pkg/fcrrestserver/server.go:Start", "common/pkg/fcrp2pserver/server.go:Start"]}
{"id": "C140", "title": "Built settings are what was set", "statement": "After any sequence of calls of setters, the settings that are built have for each setting the value set last, and its default if it was never set; building fails exactly if there is no blockchain key or a missing retrieval key cannot be generated.", "quantifier": "all sequences of setter calls of the client and of both admins, all arguments", "why_tests_cant": "Ranges over all sequences of calls.", "anchors": ["client/pkg/fcrclient/builder.go:Build", "gateway-admin/pkg/fcrgatewayadmin/builder.go:Build", "provider-admin/pkg/fcrprovideradmin/builder.go:Build"]}
{"id": "C141", "title": "A client has one payment manager", "statement": "However many goroutines ask a client for its payment manager at the same time, at most one manager is ever made for the client; every call that returns a manager returns that one, a call returns nil only if the wallet settings give no manager, and no call is left waiting for ever.", "quantifier": "every number of concurrent calls, every interleaving of their steps, good and bad settings", "why_tests_cant": "A second manager would keep its own nonces and totals and so give out vouchers that spend the same money twice; it would appear only under particular interleavings of the lazy initialisation, which a test does not control.", "anchors": ["client/pkg/fcrclient/filecoin_retrieval_client.go:PaymentMgr,NewFilecoinRetrievalClient"]}
{"id": "C142", "title": "What a gateway acknowledged outlives what its admin does; nothing else gets in", "statement": "From the start of a gateway, let its admin, providers, gateways and clients send it any requests in any order. Whatever a lookup of a cid finds was vouched for by a registered provider (in a publish request or in the list that the gateway asked it for), is for that cid and has not expired. An offer whose publication the gateway acknowledged is found under each of its cids until it expires, whatever keys, wallets, reputations or group settings the admin has set before or since.", "quantifier": "all histories of requests of all kinds, each in its own environment (time, register, network, hashes without collisions), all offers and cids", "why_tests_cant": "Histories of requests of several parties are unbounded; a test fixes one interleaving of setting up and publishing.", "anchors": ["gateway/cmd/gateway/main.go:main", "gateway/internal/core/core.go:GetSingleInstance", "gateway/internal/api/adminapi/initialise_key_handler.go:HandleGatewayAdminInitialiseKeyRequest"]}
{"id": "C143", "title": "What a gateway sends is signed with the key set last", "statement": "After any history of requests, every message that a gateway writes to a requester or sends to another node verifies under the public key that belongs to the private key its admin set last, and carries the version set with it.", "quantifier": "all histories of requests of all kinds, all requests, all messages sent while serving them, any signature scheme that verifies its own signatures", "why_tests_cant": "It ranges over every handler and every message they send, after every history of key changes.", "anchors": ["gateway/internal/core/core.go:GetSingleInstance", "gateway/internal/api/adminapi/initialise_key_handler_v2.go:HandleGatewayAdminInitialiseKeyRequestV2", "common/pkg/fcrmessages/fcrmessage.go:Sign"]}
{"id": "C144", "title": "A gateway answers exactly once it has been set up", "statement": "A gateway that has never been given a key writes and sends nothing in reply to requests of clients, gateways and providers; one that has been given a key but no wallet writes and sends nothing in reply to requests that are paid. Once it has them, every request is handled with the identifier and key set last, the prices of its configuration and the offers taken so far; in particular an establishment request in time is answered with its challenge.", "quantifier": "all histories of requests of all kinds, all requests", "why_tests_cant": "Every handler has to be right before, between and after any number of initialisations.", "anchors": ["gateway/cmd/gateway/main.go:main", "gateway/internal/core/core.go:GetSingleInstance", "gateway/internal/api/adminapi/initialise_key_handler_v2.go:HandleGatewayAdminInitialiseKeyRequestV2"]}
{"id": "C145", "title": "A captured request cannot be used twice", "statement": "The documentation says that nonces guard against replay: a request that was served once, sent again by whoever captured it, gets nothing more out of a gateway.", "quantifier": "all histories of a gateway's life, all requests, any number of repetitions, all vouchers", "why_tests_cant": "Between the first and the second use there may be any requests of anybody; a test fixes a few.", "anchors": ["docs/docs/messages.md", "gateway/internal/api/clientapi/standard_discover_handler.go:HandleClientStandardCIDDiscoverRequest", "common/pkg/fcrpaymentmgr/payment_manager.go:Receive"]}
{"id": "C146", "title": "Protocol versions are agreed on", "statement": "The documentation says that a gateway that gets a request in a version it does not use asks for a change of the protocol, or says that there is no common version, and serves no request in a version it does not support.", "quantifier": "all histories, all kinds of requests, all versions and lists of supported versions", "why_tests_cant": "Versions are arbitrary numbers, and every handler has to look at them.", "anchors": ["docs/docs/messages.md", "common/pkg/fcrmessages/fcrmessage.go:CreateFCRMessage", "common/pkg/fcrmessages/basic_protocol_change_request.go:EncodeProtocolChangeRequest"]}
{"id": "C147", "title": "What a gateway acknowledged it does not deny", "statement": "The documentation says that a gateway is deregistered when a client can show a signed acknowledgement of an offer together with a signed answer that there is no such offer. So an honest gateway must never write such an answer: once it has acknowledged an offer, then until the offer expires no answer, to whoever asks in whatever way, says that there is none for one of its cids.", "quantifier": "all histories before and after the acknowledgement, all offers and cids, all later requests of all kinds", "why_tests_cant": "One wrong answer after any history costs the gateway its deposit; tests see few histories.", "anchors": ["docs/docs/systemsetup.md", "gateway/internal/api/providerapi/publish_group_offer_handler.go", "gateway/internal/api/clientapi/standard_discover_offer_handler.go"]}
{"id": "C148", "title": "A client of bad reputation is served worse", "statement": "Once the admin of a gateway has given a client a bad reputation, requests of that client are no longer served as before.", "quantifier": "all histories, all clients and reputations, all requests", "why_tests_cant": "It is about every handler and every history.", "anchors": ["docs/docs/reputation.md", "gateway/internal/reputation/reputation.go:SetClientReputation", "gateway/internal/api/adminapi/set_client_reputation_handler.go:HandleGatewayAdminSetReputationRequest"]}
{"id": "C149", "title": "A better offer of a provider replaces its older one", "statement": "The documentation says: when a gateway gets an offer of a provider for a cid for which it has one of this provider already, with the same or a later expiration date and the same or a lower price, the new one replaces the old one; with a higher price, or a lower price and an earlier expiration date, both are kept.", "quantifier": "all pairs of acknowledged offers, all histories before, between and after them", "why_tests_cant": "All prices, dates and histories.", "anchors": ["docs/docs/rgstorageandcaching.md", "gateway/internal/core/core.go", "gateway/internal/api/providerapi/publish_group_offer_handler.go"]}
{"id": "C150", "title": "A registration cannot be taken over", "statement": "The documentation says that registrations are signed by the root key, that a registration is rejected if the identifier exists, and that nobody can be removed forcibly. So nobody can take over or remove the record of another node.", "quantifier": "all histories of registrations and deletions, all records and kinds", "why_tests_cant": "All histories of requests of strangers.", "anchors": ["docs/docs/systemsetup.md", "register/internal/handlers/gateways_handler.go:AddGatewayRegister,DeleteGatewayRegisters", "register/internal/handlers/providers_handler.go"]}
{"id": "C151", "title": "The JavaScript client establishes with any gateway", "statement": "A gateway that has been given its key, and whose registration carries its identity and its public key, becomes an active gateway of the JavaScript client when the client asks for it within the time to live: what the client writes the gateway reads, the public key and the signature the gateway publishes and sends the client decodes and verifies, and the gateway's answer it accepts, however the answer is laid out as JSON.", "quantifier": "all histories of the gateway from its start, all keys, identities, challenges, clocks within the time to live, all JSON layouts of the answer", "why_tests_cant": "Two programs in two languages with two JSON, base64 and hex implementations must agree on every byte that is signed; a test tries one message.", "anchors": ["client-js/src/clientapi/establishment_requester.ts:requestEstablishment", "client-js/src/fcrMessages/client_establishment.ts:encodeClientEstablishmentRequest,decodeClientEstablishmentResponse", "client-js/src/fcrcrypto/msg_signing.ts:decodePublicKey,verifyMessage,extractKeyFromMessage", "client-js/src/fcrMessages/fcrMessage.class.ts:FCRMessage", "client-js/src/FilecoinRetrievalClient.ts:addActiveGateways", "gateway/internal/api/clientapi/establishment_handler.go:HandleClientEstablishmentRequest"]}
{"id": "C152", "title": "A gateway keeps what it finds for a client", "statement": "The documentation says that a gateway that gets the offers for a cid from other gateways stores them in its cache, so that it can answer the next client itself.", "quantifier": "all histories, all searches with any answers of other gateways, all later requests", "why_tests_cant": "All answers of other gateways and all later requests.", "anchors": ["docs/docs/rccontentretrieval.md", "gateway/internal/api/clientapi/dht_discover_handler.go:HandleClientDHTCIDDiscoverRequest", "gateway/internal/api/clientapi/dht_discover_offer_handler.go"]}
{"id": "C153", "title": "Messages are read however JSON lays them out", "statement": "A peer may write a message with any JSON library: with any white space, any escapes of characters, the members in any order, their names in any letter case and further members between them. Every such text is read as the message it carries, what is written is such a text, and bytes that are not a JSON text are refused. A text never carries two messages.", "quantifier": "all messages, all JSON texts of them, all texts", "why_tests_cant": "Infinitely many texts of one message; refusal is about all the texts outside the grammar.", "anchors": ["common/pkg/fcrmessages/fcrmessage.go:FCRMsgFromBytes,FCRMsgToBytes,UnmarshalJSON", "client-js/src"]}
{"id": "C154", "title": "The wire format of every message kind", "statement": "Whoever speaks to a node from another program relies on the format: every message of a kind carries the type code of the kind and, as body, a JSON object with exactly the members of the kind, each of its shape (text, number, flag, list, nested message or offer); and a node judges a message of the kind by these members alone, in whatever order they come, in whatever letter case their names are written and whatever else is between them.", "quantifier": "all sixty kinds, all arguments, all protocol versions, all JSON texts of a body", "why_tests_cant": "A test encodes and decodes with the same code, so a renamed member goes unseen; all arguments and all layouts.", "anchors": ["common/pkg/fcrmessages/type.go", "common/pkg/fcrmessages/client_establishment_request.go:EncodeClientEstablishmentRequest,DecodeClientEstablishmentRequest", "common/pkg/fcrmessages/gatewayadmin_get_reputation_request.go:EncodeGatewayAdminGetReputationRequest"]}
{"id": "C155", "title": "The JavaScript client takes no gateway for active that has not answered", "statement": "Whatever the register and the network answer, a gateway is among the active ones only if the register returned its registration for that identifier, and under the key of that registration a message was signed which confirms an establishment, names the gateway and carries the 32 random bytes the client drew for an attempt with it.", "quantifier": "all histories of calls, all answers of register and network", "why_tests_cant": "Every possible answer of an attacker, in every history.", "anchors": ["client-js/src/FilecoinRetrievalClient.ts:addGatewaysToUse,addActiveGateways", "client-js/src/clientapi/establishment_requester.ts:requestEstablishment", "client-js/src/fcrcrypto/secp256k1.service.ts:secp256k1Verify"]}
{"id": "C156", "title": "An establishment request of the JavaScript client lapses", "statement": "A request for establishment that a gateway reads after the time to live set in the client is not answered.", "quantifier": "all times to live, all delays, all gateways", "why_tests_cant": "All delays; a test does not wait.", "anchors": ["client-js/src/FilecoinRetrievalClient.ts:addActiveGateways", "client-js/src/config/settings.config.ts:Settings", "gateway/internal/api/clientapi/establishment_handler.go:HandleClientEstablishmentRequest"]}
{"id": "C157", "title": "The JavaScript client finds offers", "statement": "When an active gateway has offers for a content identifier and the search is paid for, standard discovery returns them, DHT discovery returns those of other gateways, and the acknowledgement of an offer a provider has published is confirmed.", "quantifier": "all clients, payment states, registers, networks and answers", "why_tests_cant": "That no answer whatsoever leads to an offer cannot be seen from any number of answers tried.", "anchors": ["client-js/src/FilecoinRetrievalClient.ts:findOffersStandardDiscoveryV2,findOffersDHTDiscoveryV2,FindDHTOfferAck", "client-js/src/clientapi/standard_discover_offer_requester.ts:requestStandardDiscoverOffer", "client-js/src/clientapi/standard_discover_requester_v2.ts:requestStandardDiscoverV2", "client-js/src/fcrMessages/client_standard_discover_offer.message.ts:decodeClientStandardDiscoverOfferResponse", "client-js/src/clientapi/find_offers_dht_discovery_v2.ts:requestDHTDiscoverV2", "client-js/src/fcrMessages/client_dht_offer_ack.ts:decodeClientDHTOfferAckResponse"]}
{"id": "C158", "title": "Vouchers of the JavaScript client are covered and in order", "statement": "The vouchers the payment manager of the JavaScript client gives out on a lane come in the order of their nonces and each adds the amount paid to the one before; those for one channel, over all lanes, never exceed what the channel holds; a payment that is covered gets a voucher; and everything paid into channels can be spent.", "quantifier": "all interleavings of payments with top-ups under way, for any recipients, lanes and amounts, and all failures of top-ups", "why_tests_cant": "All interleavings of asynchronous top-ups and all histories.", "anchors": ["client-js/src/fcrPaymentMgr/payment_manager.class.ts:FCRPaymentMgr,topup,updateExistingChannelState,createNewChannelState,pay"]}
{"id": "C159", "title": "The JavaScript client can pay from its wallet", "statement": "A recipient that has been topped up from the client's wallet can be paid up to that amount, from the first use of the wallet on.", "quantifier": "all wallets, all histories of calls, all amounts and lanes", "why_tests_cant": "Concerns every history of calls on a new wallet; the existing test uses a wallet with a past.", "anchors": ["client-js/src/fcrPaymentMgr/payment_manager.class.ts:createNewChannelState,pay"]}
{"id": "C160", "title": "Asking for the payment manager is free of data races", "statement": "No two concurrent calls for a client's payment manager access the field that holds it at the same time with one of them writing, unless a lock orders them.", "quantifier": "every number of concurrent calls and every interleaving", "why_tests_cant": "A data race depends on the schedule; the race detector reports only those that happen in the runs it sees.", "anchors": ["client/pkg/fcrclient/filecoin_retrieval_client.go:PaymentMgr"]}
{"id": "C161", "title": "A node that is told it is registered is registered", "statement": "When registering a gateway or a provider returns no error, the register has the record; when it returns an error, the register is unchanged. A listing of the register that fails is not mistaken for a list of nodes.", "quantifier": "every record, every history of registrations and deletions, the register's store up or down at every call, every answer that may come from the address of the register", "why_tests_cant": "Tests run against a register that works, or against a mock of the HTTP layer; the failures are in what the real layers do with statuses, closed connections and error bodies.", "anchors": ["common/pkg/request/request.go:SendJSON,GetJSON,Delete", "common/pkg/fcrregistermgr/register_manager.go:RegisterGateway,RegisterProvider", "register/internal/handlers/gateways_handler.go:AddGatewayRegister,GetGatewayRegisters"]}
{"id": "C162", "title": "The environment file of a node says what the template says", "statement": "The tool that makes a node's environment file never changes an existing file unless told to overwrite; what it writes is the template; it fails, changing nothing, exactly if a file is missing or unreadable; and when it calls the files equal, or has been allowed to overwrite, the file gives every name the values of the template.", "quantifier": "every template, every existing file or none, with and without overwriting", "why_tests_cant": "It is a claim about all texts: separators in values, comments, repeated names, blank lines and line ends.", "anchors": ["gateway/scripts/make-env-file/main.go:ParseConfig,GetConfigDiff,CheckEnv,MakeEnv,CopyFile"]}
{"id": "C163", "title": "Every request is answered, once", "statement": "Whoever sends a gateway a request, as a client, a gateway or a provider, gets exactly one answer: a message, an error status or the message for invalid requests. A request that comes late or is underpaid is refused by one such answer, and a voucher that is not accepted is refused before anybody else is asked or paid.", "quantifier": "all gateways, environments, kinds of requests and messages, well-formed or not", "why_tests_cant": "a test sends a few requests; the claim is about all messages and every way through twelve handlers, including how far a relayed search gets before it fails", "anchors": ["gateway/internal/api/clientapi/establishment_handler.go:HandleClientEstablishmentRequest", "gateway/internal/api/clientapi/dht_discover_handler_v2.go:HandleClientDHTCIDDiscoverRequestV2", "gateway/internal/api/clientapi/dht_discover_offer_handler.go:HandleClientDHTDiscoverOfferRequest", "gateway/internal/api/gatewayapi/dht_discover_handler_v2.go:HandleGatewayDHTDiscoverRequestV2"]}
{"id": "C164", "title": "Every request to a provider is answered, once", "statement": "Whoever sends a provider a request, as its admin, a client or a gateway, gets exactly one answer: a message, an error status or the message for invalid requests. How many gateways the provider asks on the way, and how they answer, makes no difference. (A request on which the handler breaks down before it answers gets none; when that happens is the subject of C103.)", "quantifier": "all providers whose key signs, all environments, kinds of requests and messages, well-formed or not", "why_tests_cant": "the claim is about all messages and every way through nine handlers with nested loops over CIDs and gateways, any of which may fail", "anchors": ["provider/internal/api/adminapi/publish_dht_offer_handler.go:HandleProviderAdminPublishDHTOfferRequest", "provider/internal/api/adminapi/publish_group_offer_handler.go:HandleProviderAdminPublishGroupOfferRequest", "provider/internal/api/gatewayapi/list_dht_offer_handler.go:HandleGatewayListDHTOfferRequest", "provider/internal/api/clientapi/dht_offer_ack_handler.go:HandleClientDHTOfferAckRequest"]}
{"id": "C165", "title": "Searching a gateway's store while offers are being added", "statement": "A gateway may search its store while offers are being added to it. Every search then returns only whole offers as they were published, finds every offer that was stored before, and does not crash; and when the additions are through, the store answers as if they had been made one after the other.", "quantifier": "all histories of additions, sets of concurrent additions and searches, interleavings of their statements, and refusals of the database", "why_tests_cant": "the outcome depends on which statements of one call come between those of another, and there are unboundedly many interleavings", "anchors": ["common/pkg/offermgr/offer_manager.go:insertOffer,selectOffers,selectOffersSingle,selectOffersRange,selectOffersDigest", "common/pkg/database/database.go:Exec,Query"]}
{"id": "C166", "title": "A top-up sends the amount it was asked for", "statement": "Every top-up that the chain executes sends the amount the caller's number had, that number keeps its value, and the balance recorded for each recipient is exactly what was sent to that recipient's channel, however many top-ups and payments came before and for whomever.", "quantifier": "every history of Topup and Pay over all recipients, all numbers passed by pointer (with every way their memory can be laid out), and every amount written in the settings", "why_tests_cant": "numbers share memory depending on how they were made and how large they are; the effect shows only after several top-ups of several recipients with large amounts", "anchors": ["common/pkg/fcrpaymentmgr/payment_manager.go:Topup,Pay", "gateway/config/config.go:Map", "gateway/internal/api/clientapi/dht_discover_handler_v2.go:topupAndPay", "gateway/internal/api/clientapi/dht_discover_offer_handler.go"]}
{"id": "C167", "title": "A voucher buys one answer, however requests overlap", "statement": "A gateway that serves paid requests at the same time - standard discoveries and the offers for them, discoveries through the DHT and the offers for them, from clients or from other gateways - never answers two of them with offers, digests or other gateways' answers for the same money: the vouchers of any two requests that are served on one lane of a payment channel are worth different amounts, each more than had been paid before, and whoever is served n standard discoveries has signed a voucher worth n times the price of a search more than had been paid before.", "quantifier": "every state of the gateway, every list of paid requests of any kind in any circumstances, and every interleaving of the steps of their handlers - search, lookup of the channel, entry of the channel, check of the voucher, reading of prices, payments to other gateways - with each other and with changes of the offer store, the outbound channels, the price of offers and the chain", "why_tests_cant": "A test runs a handful of requests in whatever order the scheduler picks; the claim is about every interleaving of every number of requests, and its only failure needs all of them between the same two lines.", "anchors": ["common/pkg/fcrpaymentmgr/payment_manager.go: Receive", "gateway/internal/api/clientapi/standard_discover_handler_v2.go: HandleClientStandardCIDDiscoverRequestV2", "gateway/internal/api/clientapi/standard_discover_offer_handler.go", "gateway/internal/api/gatewayapi/dht_discover_handler_v2.go", "gateway/internal/api/gatewayapi/dht_discover_offer_handler.go", "gateway/internal/api/clientapi/dht_discover_handler_v2.go", "gateway/internal/api/clientapi/dht_discover_offer_handler.go"]}
{"id": "C168", "title": "A payment channel is one account, however its address is written", "statement": "For each payment channel on the chain, the sum of everything that Receive credits for it, over all the texts in which its address can be written, is within the balance the chain shows for it, and a voucher credited once is not credited again under another spelling of the channel.", "quantifier": "every history of Receive, every channel address (letter of the network, number with or without leading zeros, other protocols), every voucher", "why_tests_cant": "The tests use one address as the library prints it; the claim is about every text that the library reads as the same address.", "anchors": ["common/pkg/fcrpaymentmgr/payment_manager.go: Receive", "common/go.mod"]}
{"id": "C169", "title": "A node that does not answer delays only the requests to it", "statement": "However requests to other nodes overlap, none waits for ever on another: as long as one has not returned, one can go on, and each returns after a bounded number of steps of its own. A request to one node does not have to wait for another node to answer.", "quantifier": "all numbers of requests to any nodes, all interleavings, everything the network does (dialling and exchanges that succeed or fail)", "why_tests_cant": "Which request waits for which depends on the schedule; circles of waiting requests appear only in some.", "anchors": ["common/pkg/fcrp2pserver/pool.go:getGatewayConn", "common/pkg/fcrp2pserver/pool.go:removeActiveGateway", "common/pkg/fcrp2pserver/server.go:RequestGatewayFromGateway"]}
{"id": "C170", "title": "A node's messages carry one identity, however requests overlap", "statement": "Every message a gateway or provider sends names the node and is signed with a key and a key version that its admin set together, also while the admin is setting another identity; no request crashes because an identity is being set.", "quantifier": "all identities, all numbers of overlapping requests that set identities or send messages, all interleavings of their accesses", "why_tests_cant": "The mixture appears only if accesses of two requests fall between one another.", "anchors": ["gateway/internal/core/core.go:Core", "gateway/internal/api/adminapi/initialise_key_handler.go:HandleGatewayAdminInitialiseKeyRequest", "gateway/internal/api/adminapi/initialise_key_handler_v2.go:HandleGatewayAdminInitialiseKeyRequestV2", "gateway/internal/api/clientapi/establishment_handler.go", "provider/internal/api/adminapi/initialise_key_handler.go:HandleProviderAdminInitialiseKeyRequest", "common/pkg/fcrmessages/fcrmessage.go:Sign"]}
{"id": "C171", "title": "What gateways have acknowledged is in the provider's records, however requests overlap", "statement": "When publications overlap, with each other and with requests for the records, no acknowledged offer is lost from or duplicated in what the provider's admin is shown for a gateway, and once a publication is over everyone who asks for the offers of the gateway is shown all of them in order, and every client who asks for an acknowledgement of one of their CIDs is given an acknowledgement by that gateway of offers for that CID.", "quantifier": "all earlier records, all numbers of overlapping publications and queries, all interleavings", "why_tests_cant": "Lost updates appear only in some schedules.", "anchors": ["provider/internal/api/providerapi/publish_dht_offer_requester.go:RequestProviderPublishDHTOffer", "provider/internal/api/providerapi/publish_group_offer_requester.go:RequestProviderPublishGroupOffer", "provider/internal/api/adminapi/get_published_offer_handler.go", "provider/internal/api/clientapi/dht_offer_ack_handler.go", "provider/internal/core/core.go:Core"]}
{"id": "C172", "title": "A client that pays finds what was published, and both books agree afterwards", "statement": "A client whose account with a gateway agrees with the gateway's books, and that is set to pay at least the gateway's prices, searches for a CID with the second version of standard discovery. If it has the funds, it gets exactly the verified ones among the first of the offers that the gateway held for the CID when it was asked, at most as many as it asked for; it sends two messages and makes two payments, one for the search and one per offer; and afterwards its account and the gateway's books agree again, having grown by exactly what was paid, so the next search can be made the same way. If the gateway holds nothing for the CID, the client pays for the search only, gets the empty list, and the books agree. What other clients and providers ask of the gateway before, between and after does not matter, as long as nobody else presents a voucher for this client's channel. An unexpired offer that a provider published and the gateway acknowledged is among what is found, if the client asks for enough.", "quantifier": "all histories of the gateway before the search and between its two messages, all CIDs, all clients, accounts and prices, all limits on the number of offers", "why_tests_cant": "Ranges over all histories of the gateway, all other traffic between the two messages of a search, all accounts and all numbers of offers; a test follows one search.", "anchors": ["client/pkg/fcrclient/filecoin_retrieval_client.go:FindOffersStandardDiscoveryV2", "gateway/internal/api/clientapi/standard_discover_handler_v2.go", "gateway/internal/api/clientapi/standard_discover_offer_handler.go", "common/pkg/fcrpaymentmgr/payment_manager.go:Pay", "common/pkg/fcrpaymentmgr/payment_manager.go:Receive"]}
{"id": "C173", "title": "The Merkle trees of the JavaScript client are those of the gateway and the provider", "statement": "For every list of contents, building a Merkle tree in the JavaScript client leaves the list as it is, the proof generated for each content verifies against the root, a content that is not in the list gets no accepted proof, and for the CIDs of an offer the root is the one that the Go code computes.", "quantifier": "all lists of contents of any length, every content, every hash function with 32-byte digests", "why_tests_cant": "Ranges over all tree shapes and over two programs in two languages; the tests of each language see only their own trees.", "anchors": ["client-js/src/fcrMerkleTree/tree.class.ts:FCRMerkleTree", "client-js/src/fcrMerkleTree/proof.ts:verifyContent", "common/pkg/fcrmerkletree/tree.go:CreateMerkleTree"]}
{"id": "C174", "title": "A Merkle root stands for one list of a given length", "statement": "Two lists of the same number of contents whose trees have the same root are the same list in the same order, unless a string hashed for the one collides with another string hashed for the other; so what is signed over a root is signed over the whole list.", "quantifier": "all pairs of lists of contents of equal length, every hash function with 32-byte digests", "why_tests_cant": "Ranges over all pairs of lists; tests compare a few roots.", "anchors": ["common/pkg/fcrmerkletree/tree.go:CreateMerkleTree", "common/pkg/fcrmerkletree/tree.go:GetMerkleRoot", "client-js/src/fcrMerkleTree/tree.class.ts:FCRMerkleTree"]}
{"id": "C175", "title": "The printout of a message for the log loses nothing and cannot fail", "statement": "DumpMessage returns for every message. The printout has one line for every 32 bytes of the encoded message, each with its offset, the bytes in hexadecimal and the bytes as characters, where everything but printing ASCII shows as a block. The encoded message can be read off the printout.", "quantifier": "every message, of every length and with every content", "why_tests_cant": "one test compares the printout of a message with itself; lengths, row boundaries and the padding of a short row vary without bound", "anchors": ["common/pkg/fcrmessages/dump.go:dumpMessage", "common/pkg/fcrmessages/dump.go:dump", "common/pkg/fcrmessages/dump.go:printable", "common/pkg/fcrmessages/fcrmessage.go:DumpMessage"]}
{"id": "C176", "title": "A server that does not answer holds up only its own callers", "statement": "When several goroutines use one client library, administration library or register manager at the same time, a call to a server that answers is not delayed by a call to another server that does not answer; every call returns, at the latest when its time of 180 seconds is up.", "quantifier": "every number of concurrent HTTP calls, every schedule, every assignment of servers that answer or stay silent, every time", "why_tests_cant": "A test has a server that answers and one call at a time; that one silent server stops all the others is seen only when calls overlap, and how long a call can be kept waiting is a statement about every schedule.", "anchors": ["common/pkg/request/request.go:NewHttpCommunicator", "common/pkg/request/request.go:SendMessage", "common/pkg/request/request.go:GetJSON", "client/pkg/api/clientapi/client_api.go:NewClientApi"]}
{"id": "C177", "title": "Offers published and listed at the same time", "statement": "A provider that publishes several DHT offers, or publishes and answers listings of a range, at the same time ends up with every published offer in every listing whose range covers it, and every listing comes to an end.", "quantifier": "every history of publications and listings, every pair of offers published together or of listings served together, every order in which the parts of the two calls are carried out", "why_tests_cant": "A test publishes and lists one after the other; what is lost depends on how two calls interleave inside the list of contents and on which contents lie between the two.", "anchors": ["common/pkg/dhtring/dhtring.go:Insert", "common/pkg/dhtring/dhtring.go:GetWithinRange", "common/pkg/dhtring/dhtring.go:Remove", "common/pkg/fcroffermgr/offer_manager.go:AddDHTOffer", "common/pkg/fcroffermgr/offer_manager.go:GetDHTOffersWithinRange"]}
{"id": "C178", "title": "Lookups give back their connections to the database", "statement": "However many lookups a gateway has answered from its store of offers, the next one is answered as the first: an offer that is on sale is found by its content, by a range and by its digest, and a new offer can be stored.", "quantifier": "every number of connections that can be in use at the same time, every history of additions and lookups, every clock, every order of the rows of a result", "why_tests_cant": "The tests make a handful of lookups per process; what a lookup keeps shows only when a process has made as many as the system has connections to give.", "anchors": ["common/pkg/offermgr/offer_manager.go:selectOffers", "common/pkg/offermgr/offer_manager.go:selectOffersDigest", "common/pkg/offermgr/offer_manager.go:GetOfferByDigest", "common/pkg/offermgr/offer_manager.go:GetDHTOffersWithinRange", "common/pkg/database/database.go:Query", "common/pkg/database/database.go:NewDatabase"]}
{"id": "C179", "title": "What is credited can be collected", "statement": "A voucher that Receive credits can be redeemed by its holder on the chain, at the channel it was presented on, from that moment on and without anything else: no time lock, secret or further condition stands in the way, and the channel has not been settled. In particular nobody is served against a voucher that is worth nothing.", "quantifier": "every state of the payment manager, channel and voucher, every choice of terms by the payer, every epoch; for vouchers of this code every history of top-ups and payments", "why_tests_cant": "The tests receive vouchers that the same code has made, which have no terms; what is missing shows only with vouchers made by other software.", "anchors": ["common/pkg/fcrpaymentmgr/payment_manager.go:Receive", "common/pkg/fcrpaymentmgr/payment_manager.go:Pay", "gateway/internal/api/clientapi/standard_discover_handler_v2.go"]}
{"id": "C180", "title": "A gateway that is stopped and started again", "statement": "A gateway that is stopped at any moment, in the middle of storing an offer as well, and started again on the same machine, any number of times, carries on as if it had not been stopped: every offer that it acknowledged to a provider is found until it expires, nothing is found that no provider published, it answers its clients as before, and a voucher that it has credited is not credited again.", "quantifier": "every number of lives of the process, every history of requests in each of them, every moment at which a life ends, every name of the machine and of the container", "why_tests_cant": "The unit tests drop the tables when the offer manager is made, so that no test has ever seen a second start; the moments at which a process can end are as many as the statements of all histories.", "anchors": ["common/pkg/database/database.go:NewDatabase", "common/pkg/offermgr/offer_manager.go:NewFCROfferMgr", "common/pkg/offermgr/offer_manager.go:insertOffer", "gateway/internal/core/core.go:GetSingleInstance", "gateway/cmd/gateway/main.go"]}
{"id": "C181", "title": "Waiting for the chain holds up nobody else", "statement": "Top-ups, payments and received vouchers of one payment manager may overlap in any way: all of them return once the chain has answered, and while one of them still waits for the chain (a top-up waits for its receipt without limit) the calls about other recipients and other channels return nevertheless.", "quantifier": "every number of threads, every sequence of Topup, Pay and Receive in each of them, every schedule, every moment at which one of them stops to wait", "why_tests_cant": "The unit tests call the payment manager from one thread against a mocked node that answers at once; a hold-up needs a slow receipt and a second caller at the right moment, and reader/writer locks behave differently once a writer has announced itself.", "anchors": ["common/pkg/fcrpaymentmgr/payment_manager.go: Topup, Pay, Receive, waitReceipt"]}
{"id": "C182", "title": "Top-ups that overlap all take effect", "statement": "Each of any number of top-ups that one payment manager makes at the same time sends the chain a message that can be executed beside those of the others: no two messages of the account carry the same number.", "quantifier": "every number of top-ups, every choice of new and known recipients, every schedule, every number at which the account's messages stand", "why_tests_cant": "A single test run sees one interleaving of the question for the number and the sending of the message; the mocked node of the tests gives any number to anybody.", "anchors": ["common/pkg/fcrpaymentmgr/payment_manager.go: Topup, fillMsg"]}
{"id": "C183", "title": "A payer that is stopped and started again", "statement": "A client that pays and is stopped and started again, any number of times, with the same wallet: whatever it pays is credited by the gateway in full, and what it has topped up and not yet spent can still be spent after the restart.", "quantifier": "every number of lives of the paying process, every history of top-ups and payments in each of them, every recipient, lane and amount", "why_tests_cant": "Payment channels live on a chain that unit tests replace by a stub; no test makes a second manager for the same wallet, and the sums concern all histories.", "anchors": ["common/pkg/fcrpaymentmgr/payment_manager.go:NewFCRPaymentMgr", "common/pkg/fcrpaymentmgr/payment_manager.go:Topup", "common/pkg/fcrpaymentmgr/payment_manager.go:Pay", "common/pkg/fcrpaymentmgr/payment_manager.go:Receive", "client/pkg/fcrclient/filecoin_retrieval_client.go:PaymentMgr"]}
{"id": "C184", "title": "A provider that is stopped and started again", "statement": "A provider that is stopped, started again and set up with the same key carries on: its admin sees the offers that it published, gateways can list them, and clients are shown the acknowledgements of the gateways that have them.", "quantifier": "every number of lives of the process, every history of requests in each of them, every request afterwards", "why_tests_cant": "The provider is a process-wide singleton that a test cannot start twice, and the claim concerns every history before and after the restart.", "anchors": ["provider/internal/core/core.go:GetSingleInstance", "common/pkg/fcroffermgr/offer_manager.go:NewFCROfferMgr", "provider/internal/api/clientapi/dht_offer_ack_handler.go:HandleClientDHTOfferAckRequest", "provider/internal/api/gatewayapi/list_dht_offer_handler.go:HandleGatewayListDHTOfferRequest", "provider/internal/api/adminapi/get_published_offer_handler.go:HandleProviderAdminGetPublishedOfferRequest"]}
{"id": "C185", "title": "A silent node holds up only the calls about it", "statement": "The calls of one administration library may overlap in any way: all of them return once the nodes have answered or the time-out has passed, and while one node says nothing the calls that need nothing from it (about other nodes, or about nodes that are not in use, which are refused without any message) return nevertheless.", "quantifier": "every number of threads, every sequence of calls of a gateway or provider administrator in each of them, every schedule, every moment at which one of them stops to wait", "why_tests_cant": "The unit tests call the libraries from one thread with mocked callers that answer at once; a hold-up needs a silent node, a second caller at the right moment, and a reader/writer lock in which a writer has announced itself.", "anchors": ["gateway-admin/pkg/fcrgatewayadmin/filecoin-gateway-admin.go: InitialiseGateway, InitialiseGatewayV2, ForceUpdate, ListDHTOffer, UpdateGatewaySupportedFeatures", "provider-admin/pkg/fcrprovideradmin/filecoin_provider_admin.go: InitialiseProvider, InitialiseProviderV2, PublishGroupCID, PublishDHTCID, GetGroupCIDOffer, ForceUpdate", "common/pkg/request/request.go: SendMessage"]}
{"id": "C186", "title": "Settings without keys are refused, whatever is logged", "statement": "Build of the client's and the admins' settings never returns settings that lack a blockchain key or a retrieval key: it panics if no blockchain key was set, or if no retrieval key was set and none can be generated, whatever level of logging was asked for.", "quantifier": "every sequence of calls of the setters, every text given as the level of logging, every outcome of the key generation, every way in which the logging library reads level names", "why_tests_cant": "The unit tests build settings at one or two levels; that the refusal is itself a log message, and disappears with the log, shows only for levels that no test sets.", "anchors": ["common/pkg/logging/logging.go: Init1, setLogLevel, Panic, ErrorAndPanic", "client/pkg/fcrclient/builder.go: Build, SetLogging", "gateway-admin/pkg/fcrgatewayadmin/builder.go: Build", "provider-admin/pkg/fcrprovideradmin/builder.go: Build"]}
{"id": "C187", "title": "A peer that is slow holds up nobody else at a provider", "statement": "However many requests a provider handles at once, all of them come to an end as long as gateways answer and answers are read; and while one gateway does not answer, or one client or admin does not read what it asked for, everybody else's publications, listings and questions are still handled.", "quantifier": "all numbers and kinds of overlapping requests, all interleavings of their steps, and every point at which the slow peer stops", "why_tests_cant": "All schedules and all numbers of requests.", "anchors": ["provider/internal/core/core.go:NodeOfferMapLock,AcknowledgementMapLock", "provider/internal/api/adminapi/get_published_offer_handler.go:HandleProviderAdminGetPublishedOfferRequest", "provider/internal/api/clientapi/dht_offer_ack_handler.go:HandleClientDHTOfferAckRequest", "provider/internal/api/providerapi/publish_dht_offer_requester.go:RequestProviderPublishDHTOffer", "provider/internal/api/providerapi/publish_group_offer_requester.go:RequestProviderPublishGroupOffer", "provider/internal/api/gatewayapi/list_dht_offer_handler.go:HandleGatewayListDHTOfferRequest", "common/pkg/fcrrestserver/server.go:Start"]}
{"id": "C188", "title": "A gateway that is slow holds up only the calls about it, in the client library", "statement": "However many goroutines use one client at once, all their calls return as long as gateways, providers and the chain answer; and while one gateway says nothing, or a payment is not yet on the chain, the other calls of the client still return: gateways can be added, removed, activated and deactivated, the lists can be read, and other gateways can be searched.", "quantifier": "all numbers and kinds of overlapping calls of one client, paid and unpaid searches of any number of steps, all interleavings, and every point at which the slow peer stops", "why_tests_cant": "All schedules and all numbers of calls.", "anchors": ["client/pkg/fcrclient/filecoin_retrieval_client.go:FindOffersStandardDiscovery,FindOffersDHTDiscovery,FindOffersDHTDiscoveryV2,FindOffersStandardDiscoveryV2,FindDHTOfferAck,AddActiveGateways,RemoveActiveGateways,RemoveAllActiveGateways,GetActiveGateways,AddGatewaysToUse,RemoveGatewaysToUse,RemoveAllGatewaysToUse,GetGatewaysToUse,PaymentMgr", "common/pkg/fcrpaymentmgr/payment_manager.go:Pay,Topup", "common/pkg/request/request.go:SendMessage"]}
{"id": "C189", "title": "A running node knows the peers that the register reports", "statement": "A gateway that has completed its start-up asks the register at the configured address for gateways and providers, and at any time knows each of them by the record last reported; a provider likewise knows the gateways, and never knows of another provider.", "quantifier": "all settings, all histories of answers of the register without null entries", "why_tests_cant": "Ranges over all settings and all histories of answers; tests give the manager one answer and never go through the start-up.", "anchors": ["gateway/cmd/gateway/main.go:main", "provider/cmd/provider/main.go:main", "common/pkg/fcrregistermgr/register_manager.go:NewFCRRegisterMgr", "common/pkg/fcrregistermgr/register_manager.go:GetGateway", "common/pkg/fcrregistermgr/register_manager.go:GetProvider"]}
{"id": "C190", "title": "What the JavaScript client takes for offers is a signed answer to its question", "statement": "When the JavaScript client returns offers of a gateway for a content identifier, the gateway has signed, under the key of its registration, an answer that carries the nonce of the request, is about that content identifier and contains those offers; every answer the client uses on the way to them is signed as well.", "quantifier": "every answer of the network, every registration, content identifier, nonce and voucher", "why_tests_cant": "Ranges over everything a network can answer, including answers made for other requests and forged ones.", "anchors": ["client-js/src/clientapi/standard_discover_offer_requester.ts:requestStandardDiscoverOffer", "client-js/src/clientapi/standard_discover_requester_v2.ts:requestStandardDiscoverV2", "client-js/src/fcrMessages/client_standard_discover_offer.message.ts:decodeClientStandardDiscoverOfferResponse", "client-js/src/FilecoinRetrievalClient.ts:findOffersStandardDiscoveryV2", "client-js/src/cid/cid.interface.ts:ContentID"]}
{"id": "C191", "title": "A gateway understands what the JavaScript client asks in a discovery", "statement": "When the JavaScript client searches a gateway for content, or asks it for offers, the gateway reads the content identifier, the nonce, the digests, the payment channel and the voucher that the client meant, and answers that question.", "quantifier": "every content identifier, nonce, time, list of digests, channel and voucher, every gateway and its state", "why_tests_cant": "client and gateway are written in two languages with hand-written names of members; a test of either side against its own encoder passes, and a test of both covers the values it picks, while which members are read is a matter of every message", "anchors": ["client-js/src/clientapi/standard_discover_requester_v2.ts", "client-js/src/fcrMessages/client_standard_discover_offer.message.ts:encodeClientStandardDiscoverOfferRequest", "common/pkg/fcrmessages/client_standard_discover_offer_request.go", "gateway/internal/api/clientapi/standard_discover_offer_handler.go", "gateway/internal/api/clientapi/standard_discover_handler_v2.go"]}
{"id": "C192", "title": "A discovery of the JavaScript client costs the price of the searches it makes", "statement": "With enough money on the channel to the gateway, a standard discovery of the JavaScript client spends the price of one search, and a DHT discovery that asks n gateways spends n times that price; nothing else is spent, no top-up is started, and nothing is spent if the gateway is not active.", "quantifier": "every price, balance, channel, gateway, number of gateways and whatever the network answers", "why_tests_cant": "the amount spent must be right for every answer of the network, also those that end in an exception, and for every state of the channels", "anchors": ["client-js/src/FilecoinRetrievalClient.ts:findOffersStandardDiscoveryV2", "client-js/src/FilecoinRetrievalClient.ts:findOffersDHTDiscoveryV2", "client-js/src/clientapi/find_offers_dht_discovery_v2.ts:requestDHTDiscoverV2"]}
{"id": "C193", "title": "The JavaScript client reads the key version of a signature", "statement": "Whatever the key version, the JavaScript client writes it into a signature as the nodes written in Go do, and reads from a signature, its own or one of a node, the version with which it was made.", "quantifier": "every 32-bit key version, every key, message and signature", "why_tests_cant": "the versions are 2^32 and the reading goes through the conversion of any four bytes to a number; no test of the repository reads a version", "anchors": ["client-js/src/fcrcrypto/key_version.class.ts:decodeKeyVersionFromBytes", "client-js/src/fcrcrypto/key_version.class.ts:encodeKeyVersionAsBytes", "client-js/src/fcrcrypto/msg_signing.ts:extractKeyVersionFromMessage", "client-js/src/fcrcrypto/encode.helper.ts:array2str"]}
{"id": "C194", "title": "What the JavaScript client signs is the message", "statement": "A signature that the JavaScript client makes of a message verifies, with it and with a node, under the signer's public key for that message, and for no message with other members or values.", "quantifier": "every message, key, key version, and all hash functions and signature schemes without collisions and forgeries", "why_tests_cant": "that two different messages never share a signature is a statement about all pairs of messages; the tests compare signatures with recorded ones", "anchors": ["client-js/src/fcrcrypto/msg_signing.ts:signMessage", "client-js/src/fcrcrypto/msg_signing.ts:getToBeSigned", "client-js/src/fcrcrypto/msg_signing.ts:verifyMessage", "client-js/src/fcrMessages/fcrMessage.class.ts:verify"]}
{"id": "C195", "title": "An offer that the JavaScript client keeps is genuine, and tells what it holds", "statement": "Of the offers that a gateway sends, the JavaScript client keeps at most as many as it was asked for, and only those that are signed by their provider and whose Merkle proof is right; asked for its provider, price, expiry, quality or signature, an offer answers with what it was made with.", "quantifier": "every list of offers, every register, every limit", "why_tests_cant": "the offers come from a gateway that may be dishonest, so the checks must hold for every list; the repository has no test of the class", "anchors": ["client-js/src/cidoffer/subcidoffer.class.ts:SubCIDOffer", "client-js/src/FilecoinRetrievalClient.ts:findOffersStandardDiscoveryV2"]}
{"id": "C196", "title": "Gateways on one machine keep their offers apart", "statement": "Several gateways may run on one machine. Each of them finds and sells only offers that a provider published to it, not those that were published to another.", "quantifier": "every number of gateways on a machine, every name of the machine and of containers, every order in which offers are added at them, every lookup", "why_tests_cant": "the tests open one database, which they empty first; whether two gateways share one depends on the environment of both and on the whole history of the machine", "anchors": ["common/pkg/database/database.go:NewDatabase", "common/pkg/offermgr/offer_manager.go:NewFCROfferMgr", "common/pkg/offermgr/offer_manager.go:GetOffers", "gateway/internal/core/core.go:GetSingleInstance"]}
