# Formal model of fc-retrieval in Lean 4

## Layout

* `lean/Verif/Model/*.lean` – the model: total, computable functions written function by function after
  the Go code. Every definition cites file and lines in `/repo` and says where it simplifies.
* `lean/Verif/Spec/*.lean` – small specifications, independent of the model's helpers.
* `lean/Verif/Lemmas/*.lean` – proof machinery only.
* `lean/Verif/Props/*.lean` – one theorem group per property, named after it, each followed by an
  `example` showing that a concrete non-trivial case meets the hypotheses.
* `MANIFEST.json` maps properties to theorems; `seeded/LOG.jsonl` logs the wrong-program experiments.

## Modelling conventions

* Go panics (nil dereference, index out of range, write to a nil map) are explicit results, never
  hidden behind default values. `error` returns are values.
* Pointer structures (`dhtring`, stored `*CIDOffer`) are modelled with an explicit heap, so aliasing is
  visible. Other slices and maps are lists and finite functions.
* `*big.Int` amounts are `Int`/`Nat`. The words that shallow copies of a `big.Int` share are modelled in
  `Model/BigInt`, which shows for which amounts the plain numbers are right (C166); the other models use
  plain numbers, so what they say of balances holds for those amounts. `int64`/`uint64`/`uint32` wrap where the code can reach the boundary.
* Loops of the ring walk the heap with fuel; fuel is shown never to run out on the states considered.
* Goroutines are threads of explicit atomic steps; a step is what happens inside one critical section.
* Hash functions and signature schemes are parameters. What a theorem needs of them (correctness,
  unforgeability in the Dolev-Yao sense, a collision being exhibited) is a hypothesis in its statement.
* JSON is modelled twice: as values (objects with named fields, Go's decoding rules for missing
  and ill-typed fields) and as text (`Model/JsonText`: `render` writes what `json.Marshal` writes, `parseJson`
  reads it; `parseJson (render j) = j` is proved, so signed texts determine the signed values). Simplifications:
  numbers are integers; keys are matched with field names up to letter case, as in Go; of members with the same name only the last is looked at; invalid UTF-8 is an
  error (Go replaces it). Hex, base64, UTF-8 and the binary framings are modelled byte by byte.
* The clock, the network, the Lotus node, the register and the SQL engine are inputs.

## Trusted base

* Lean 4.33.0's kernel. Theorems depend at most on `propext`, `Classical.choice`, `Quot.sound`.
  No axioms are added; no `sorry`, `native_decide`, `bv_decide`, `implemented_by`.
* The correspondence between the Go text and the model, established by reading (no code was run).
* Behaviour of libraries described from their documentation: `encoding/json`, `encoding/hex`,
  `encoding/base64`, `math/big`, `bufio`, `net`, `sync`, `cbergoon/merkletree`, `go-address`, SQLite, Redis, Lotus.

## What is modelled, and what is not

Paths are relative to `/repo`. "Modelled" means that every function of the file has a definition in the model, with the
simplifications named in its comment.

| package | modelled | not modelled |
|---------|----------|--------------|
| `common/pkg/nodeid`, `cid` | all of `nodeid.go`, `cid.go`: `Model/Ids` | `cidadapter.go` (contents of a Merkle tree whose hash is the SHA-256 of the text of a CID; only the tests of `fcrmerkletree` use it). A tree of Go over these contents is `Merkle.rootBytes H (xs.map H)` in C173 |
| `common/pkg/dhtring` | all: `Model/Ring`, heap and pointers; any number of publications and listings at the same time, split into their search, their write and their walk: `Model/RingShared`, `Model/RingListed` | finer interleavings, torn reads of a pointer |
| `common/pkg/fcrmerkletree` | all, with the tree of `cbergoon/merkletree`: `Model/Merkle`. The level-by-level algorithm, and that of merkletreejs in `Model/JsMerkle`, were written down a second time in Python with the real SHA-256 and give the roots that `tree_test.go` (1, 5 and 100 contents) and `tree.class.test.ts` (5 contents) expect | – |
| `common/pkg/cidoffer` | all: `Model/Offer` | – |
| `common/pkg/offermgr`, `fcroffermgr` | `offermgr` (SQL): `Model/SqlOffer`, `Model/SqlConc` (statements of concurrent calls interleaved), `Model/SqlConn` (connections that lookups keep), `Model/Restart` (the file on disk, over several starts of the process; the name of the file from `common/pkg/database`), `Model/SharedDisk` (several gateways on one machine); `fcroffermgr` (maps and ring): `Model/OfferMgr`, `Model/OfferConc` | the SQL engine itself; `common/pkg/database` (opens SQLite) |
| `common/pkg/fcrcrypto` | keys, versions, signing, key identifiers: `Model/Crypto`, `Model/KeyId`; the random number generators: `Model/Prng` | curve and hash arithmetic (parameters); `keypair_blockchain.go` (same as the retrieval key pair); `/dev/random` and the clock (inputs) |
| `common/pkg/fcrmessages` | the envelope: `Model/Message`; all sixty message kinds: `Model/Codecs` over `Model/Wire`, `Model/Json`, `Model/JsonText`; the printout for the log: `Model/Dump` | nothing |
| `common/pkg/fcrp2pserver` | framing: `Model/Tcp`; pool: `Model/Pool`, with who waits for whom: `Model/PoolWait`; dispatch: `Model/P2P` | `server_reader.go`, `server_writer.go` (hand on to the framing) |
| `common/pkg/fcrrestserver` | dispatch: `Model/P2P` | the HTTP library; its recovery of panics is described in the comments |
| `common/pkg/fcrpaymentmgr` | all: `Model/Payment`, sequential and as threads; the memory its numbers share: `Model/BigInt`; texts of channel addresses: `Model/FilAddress`; the terms of vouchers: `Model/VoucherTerms`; its locks while the chain is slow: `Model/PayLocks`; the numbers of chain messages: `Model/PayNonce` | the Lotus node (input), gas; `fcrlotuswrapper` |
| `common/pkg/fcrregistermgr` | all: `Model/RegMgr`, `RegLocks`, `RegRefresh`, `RegNear` | torn pointer updates in the ring |
| `common/pkg/register`, `request` | records and their keys: `Model/Register`; `request.go`: `Model/Http` for the register, else as the network function of the callers; calls that overlap: `Model/HttpWait` | the HTTP client |
| `common/pkg/math`, `slice`, `challenge` | in the models that use them | – |
| `common/pkg/logging`, `mocks`, `utest` | the level of logging and what it does to a message: `Model/Logging` | the logging library, `mocks`, `utest` |
| `gateway` | client, gateway, provider and admin handlers, the requesters, `core`: `Model/Gateway`, `Model/GatewayAdmin`, from the start on `Model/GatewayLife`; reputation: `Model/Reputation`; configuration and start-up: `Model/Config`, `Model/Startup`; paid requests served at the same time: `Model/GatewayConc`; the identity while it is being set: `Model/Identity` | other interleavings of two requests except in reputation, payments, offers and the register manager |
| `provider` | client, gateway and admin handlers, the requesters, `core`, `main`: `Model/Provider`, `Model/ProviderMain`; configuration and start-up: `Model/Config`, `Model/Startup`; the identity while it is being set: `Model/Identity`; the records while requests overlap: `Model/ProviderRecords` | as for the gateway |
| `client` | `FilecoinRetrievalClient` and the requesters: `Model/Client`, `Model/ClientConc`, `Model/LazyInit`; settings: `Model/Settings` | the interface declarations |
| `gateway-admin`, `provider-admin` | both libraries: `Model/Admin`; settings: `Model/Settings` | the interface declarations |
| `register` | handlers over the Redis store: `Model/Register` | the generated go-swagger code, home page |
| `client-js` | the gateways: `Model/ClientJs` (messages, hex, base64, `JSON.stringify`, verification, establishment); discovery: `Model/JsDiscovery`; what it signs, key versions: `Model/JsSigning`; its class of offers: `Model/JsOffer`; the payment manager with its asynchronous top-ups: `Model/JsPayment`; Merkle trees: `Model/JsMerkle` | `filecoin/` (the node of the chain is an input), `cidoffer.class.ts` (constants, used by nobody), console output |
| `itest`, `scripts` | the tool that makes environment files: `Model/EnvFile` | integration tests, demo programs, build scripts |

## When the code does not have the property

The intended property stays in `properties.jsonl`. The theorem with suffix `_refuted` proves its negation
for the model with a concrete witness (a real bug of the code), and a theorem with suffix `_partial`
proves what does hold. Status in the manifest is then `partial`.

## Where the code disagrees with a property

Each line is a property of `properties.jsonl` that the code does not have in general, the theorems that prove it (each for the
inputs and states named in it, not only for one example), and what was found.

| property | theorems | finding |
|----------|----------|---------|
| C02 Ring removal removes exactly the named identifier | `C02_remove_refuted` | The code violates the property when the smallest of three or more is removed and when a ring of one is asked to remove another identifier; both proved, all other cases proved correct. |
| C04 Ring queries do not change the ring | `C04_queries_pure_refuted` | The code leaves a queried identifier behind when it is below all stored ones; proved, and proved harmless otherwise. |
| C06 Excluded identifier is never returned by GetClosest | `C06_exclude_refuted` | The code can return the excluded identifier when it is the smallest of three or more; proved, and proved right in all other cases. |
| C13 Merkle proofs are sound | `C13_tree_node_passes_as_content_refuted`, `C13_inner_node_passes_refuted`, `C13_sound_refuted` | False as stated: leaves and inner nodes are not told apart, so the root (and every inner node) verifies as a content. Proved: what an accepted proof shows, and soundness for proofs of full length, under a no-collision hypothesis on the strings actually hashed. |
| C14 Proof of a missing content does not verify | `C14_root_accepted_refuted` | Holds unless the missing content equals the root. |
| C23 Concurrent additions are not lost | `C23_lost_refuted`, `C23_lookup_crash_refuted`, `C23_by_digest_refuted` | Interleaving model of one storage. Proved for every schedule of any number of calls that do not meet on a CID without entry, while the offers being added do not expire; the full claim is refuted by three schedules (lost addition, crashing lookup, unlocked iteration). Proved for every schedule of any calls: a lookup that returns answers only offers that were given to an addition, are for its CID and had not expired at some moment of the lookup; a lookup by digest only an offer with that digest. |
| C24 DHT range listing respects range and limit | `C24_range_refuted`, `C24_missed_refuted`, `C24_equal_bounds_refuted` | proved for histories in which no range query lies below all CIDs and bounds differ; false otherwise: witnesses where out-of-range offers are returned, offers are missed, or the call crashes |
| C26 Database-backed offer store is exact | `C26_time_zone_refuted`, `C26_far_expiry_refuted`, `C26_repeated_content_refuted` | Exact results of all lookups after any history of adds, for any time zone. As stated (offers listed exactly until they expire, once each) it is false: the time comparison is shifted by the host's offset from UTC, expiries after the year 9999 are never listed, an offer naming a content twice is listed twice. C26_by_cid_partial is the intended statement on a UTC host for offers without repeated contents that expire before the year 10000. |
| C28 Verification does not alter the message | `C28_refuted` | false: a failed verification erases the signature of the message; exact behaviour of every sequence of verifications proved |
| C29 Message type codes are unambiguous | `C29_refuted` | false for 205 and 206, which pings and group-support notifications share; all other codes are unambiguous |
| C30 Message codecs round trip | `C30_refuted` | 58 of the 60 kinds round trip; the two acknowledgements are decoded to true whatever was sent |
| C32 Back-to-back TCP messages are all delivered | `C32_refuted` | false: a fresh bufio.Reader per message drops what it has buffered; holds when no chunk carries bytes of two messages |
| C35 Payer never commits more than was funded | `C35_shared_refuted`, `C35_shared_short_refuted` | False for amounts passed as numbers whose memory has room to spare, such as 10 FIL and more in the settings: after three top-ups of two recipients the payer signs for twice what was sent (C35_shared_refuted), or cannot spend it (C35_shared_short_refuted); see C166. With plain numbers it holds for all sequential histories (non-negative amounts for the bound, any amounts for the refusal, see C80), and so it does for numbers without room (C166_promised_partial). |
| C39 Concurrent Receive does not double-credit | `C39_double_credit_refuted` | The code credits twice when two calls race on a channel not known yet; proved safe when the channel is known. |
| C40 Concurrent Topup does not lose funds | `C40_lost_topup_refuted` | The code loses a top-up when two first top-ups race; proved exact when the channel exists. |
| C41 Register lookups release their locks | `C41_never_again_refuted` | False as stated: a GetProvider miss keeps the read lock on the provider table, so no later writer of that table (a provider refresh, shutdown) ever completes. Proved: calls other than such a miss and the CID range complete in every schedule; writers exclude everybody else. |
| C42 Range lookup cannot deadlock | `C42_deadlock_refuted` | False: the range lookup takes the ring and gateway read locks again while holding them, and a writer announcing itself in between deadlocks both for ever. Proved: completes in every schedule in which no writer of those two locks runs beside it. |
| C43 Register cache tracks the register | `C43_malformed_refuted`, `C43_upper_case_refuted` | Tables hold the last reported record for every history; ring agrees when identifiers are canonical. Refuted for malformed and upper-case identifiers. |
| C44 Gateways near a CID | `C44_few_refuted`, `C44_excluded_refuted`, `C44_cid_left_behind_refuted`, `C44_spoiled_refuted`, `C44_negative_refuted`, `C44_no_discovery_refuted` | Nearest, at most 16, excluded not returned, when there are enough gateways and the excluded one is not the smallest; the other cases are refuted. |
| C45 Refresh waits for the update | `C45_overlap_refuted`, `C45_refreshed_refuted`, `C45_stopped_refuted` | False in general: requests and answers share one channel, so overlapping callers take each other's requests for answers; callers caught by a shutdown wait for ever. Proved: for calls that do not overlap, and that the routine is never left with an answer nobody takes and every call can return unless the routine has been stopped. |
| C46 At most one pooled connection per peer | `C46_refuted`, `C46_removes_other_refuted` | one pooled connection per node, surplus closed, none lost, none closed twice or while in use, for all interleavings; false: a request can be handed a connection that another failing request then closes, and a failing request can remove a newer healthy connection |
| C48 Reputation stays in range | `C48_wraps_refuted` | Exact value after every history; range; direction; panics exactly for unknown clients. int64 addition wraps: shown harmless unless the administrator sets a value at the ends of int64. |
| C49 Gateway serves only after payment | `C49_standard_refuted`, `C49_peerDhtV2_refuted`, `C49_peerDhtOffer_refuted` | True of the two standard discovery requests of version 2 (an answer with digests or offers implies that the voucher is credited with at least the price, and paid requests are answered with exactly the stored offers). False of the unversioned handlers, which are free, and of the gateway-to-gateway handlers, which answer with digests and offers before or without looking at the amount. |
| C50 The price of an offer is constant | `C50_refuted`, `C50_free_refuted` | The price of a search is constant. The price of an offer is multiplied by the number of digests of every gateway-to-gateway offer request (and becomes zero for a request without digests); it is constant in histories without such requests. Over a whole life of a gateway, set up any number of times (C50_life_partial): the search price is always the one it started with, and so is the offer price unless another gateway asks for an offer in the DHT. |
| C51 Expired and unauthenticated requests are refused | `C51_peerDhtOffer_refuted` | True except for gateway-to-gateway offer requests, which are neither authenticated nor limited in time. |
| C54 Published DHT offers are stored faithfully by the provider | `C54_refuted` | False for batches: the loop variable is stored by address, so all CIDs of a batch get the offer for the last. C54_partial: batches of one, until expiry, whatever happens in between. |
| C55 Acknowledgements are recorded | `C55_refuted` | False for acknowledgements given when a gateway lists the offers: for a CID that nobody acknowledged before the provider crashes, and has not recorded the acknowledgement (C55_refuted). C55_genuine: what is shown is an acknowledgement that the gateway gave for a request with an offer for the CID. C55_partial: acknowledgements of published offers are recorded for good. |
| C56 Group-offer support notifications take effect | `C56_refuted`, `C56_never_refuted` | False: the list is updated in a copy of the slice, so it is empty for ever although the answer says true. |
| C57 Published offers can be listed per gateway | `C57_listing_refuted` | Exact for published offers; an offer that a gateway got by listing and acknowledged is not listed for it. |
| C58 Client returns only verified offers | `C58_standard_refuted`, `C58_dhtV2_refuted` | Holds of FindOffersDHTDiscovery and FindOffersStandardDiscoveryV2. FindOffersStandardDiscovery verifies and then returns everything received; FindOffersDHTDiscoveryV2 does not verify. Both refuted for all such answers. |
| C59 Client respects its offer limit | `C59_zero_refuted`, `C59_dht_refuted` | Payments and requests respect the limit in both second versions; what is returned does for a standard discovery with a limit of at least 1. With limit 0 there is no limit, and what DHT discovery returns is not limited: refuted. |
| C60 Client attributes offers to the right gateway | `C60_refuted` | Address of the loop variable: all entries show the offers of the last gateway. Refuted for all results; the keys, and the result when one gateway answered, are right. |
| C64 Offer acknowledgements are checked | `C64_listed_refuted` | An acknowledgement is reported exactly if it is signed, over the body of a signed publish request with the CID. C64_honest_partial composes the provider history with the client: what was acknowledged at publication is confirmed later, if no gateway listed the offers meanwhile; FcRetrieval.Gateway.C64_listed_refuted: acknowledgements of a listing are unsigned messages, which no client accepts. |
| C66 GetClosest returns everything when asked for more than is stored | `C66_getClosest_more_refuted` | The code leaves out the smallest identifier; exact answer proved. |
| C67 No request to generate a proof for a missing content succeeds | `C67_missing_content_refuted` | False: generating a proof for missing content reports no error. |
| C68 Verifying a received proof never crashes | `C68_received_proof_panics_refuted` | False: a decoded proof with fewer indices than steps panics. |
| C69 A non-positive listing limit lists nothing | `C69_nonpositive_limit_refuted` | the property is false: with limit <= 0 exactly one offer is returned whenever there is one in range |
| C70 Malformed keys and signatures are rejected without a crash | `C70_empty_string_refuted` | The code crashes on the empty string; strings of one to three bytes yield a version that is not there. |
| C71 The key version of a signature is authenticated | `C71_version_refuted` | The code does not authenticate the version: every replacement verifies. |
| C72 Shutdown and restart of the register cache keeps it consistent | `C72_restart_refuted`, `C72_lookups_fail_refuted` | Shutdown clears the table and not the ring; consistent only if everything known before is reported again. |
| C73 A publish request is accepted or refused as a whole | `C73_refuted` | False: the offers before the first bad one stay. C73_partial: exactly the verified prefix is stored, and the request is refused. |
| C74 Listing acknowledgements never crashes the provider | `C74_refuted`, `C74_expired_refuted` | False: acknowledging an offer for a CID that nobody acknowledged before writes to a nil map. C74_partial: CIDs acknowledged before. C74_miscount_partial: another number of acknowledgements than messages does not crash it and leaves its records as they are. |
| C75 Any offer limit is handled | `C75_standardV2_refuted`, `C75_dhtV2_refuted`, `C75_unpaid_refuted` | False for a negative limit: both paid calls crash after paying, and without a payment manager the standard one crashes for every limit. C75_partial: no call crashes with a limit that is not negative, a payment manager where it pays, and signed answers that are usable (Spec/ClientCrash). |
| C76 Gateway keeps its own funds safe | `C76_dhtV2_refuted`, `C76_dhtOffer_refuted` | Only the relaying requests spend, only after the voucher of the client is accepted, and what they spend is described exactly. The price is not enforced: a client that pays too little is told 500 and the peers are paid all the same. |
| C77 Offers accepted from a provider name that provider | `C77_refuted` | False: an offer naming another provider, or several, is stored. C77_partial: the signature is that of the publisher. |
| C78 A voucher is only credited on the channel it names | `C78_other_channel_refuted` | The code never looks at the channel a voucher names. |
| C79 Receive never crashes | `C79_receive_panics_refuted` | Panics for an address whose actor state has no To; proved safe for payment channel actors. |
| C80 Pay refuses negative amounts | `C80_negative_amount_refuted` | The code accepts negative amounts. |
| C83 Converting lists of identifier strings does not crash | `C83_map_from_strings_refuted` | The code crashes on a string that is not hex text of at most 64 digits: the constructor's error is ignored and the nil result dereferenced. |
| C84 Expiry is exact for every expiry value | `C84_far_expiry_refuted` | False for expiry values from 2^63-62135596800 up: time.Unix wraps and the offer counts as expired. |
| C85 Offers that decode can be used without a crash | `C85_decoded_offer_crashes_refuted`, `C85_decoded_sub_offer_crashes_refuted` | False: identifier errors are dropped by the decoders. The exact crash conditions are proved. |
| C87 Group offers and DHT offers are kept apart in the gateway's store | `C87_kinds_refuted` | False of the code: the store does not record the kind; every offer is listed by both kinds of lookup. |
| C88 Adding an offer to the gateway's store is all or nothing | `C88_lookup_crash_refuted`, `C88_truncated_refuted`, `C88_lost_content_refuted` | False of the code: a crash between statements leaves an offer with fewer contents (and another Merkle root) or with none, on which a lookup by digest crashes; a failed statement that is not the last is not reported. Proved: repeating an interrupted add completes it. |
| C89 Decoding a message never crashes | `C89_refuted` | 45 kinds cannot crash the receiver, the other 15 can: malformed identifier in a list, malformed CID in an offer, missing private key; encoding a nil pointer panics for all kinds that take one |
| C90 A pause in the middle of a message does not lose messages | `C90_refuted` | false: a timeout inside a message loses it and desynchronises the stream; pauses between messages are harmless |
| C91 Stopping a node leaves other nodes registered | `C91_others_lost_refuted` | Shutdown deletes every registration of the discovered kinds. |
| C92 No register answer crashes a node | `C92_null_refuted` | A null element panics in the update routine; all other answers are taken. |
| C93 A gateway's CID range contains its own position | `C93_contains_itself_refuted`, `C93_smallest_refuted`, `C93_none_refuted`, `C93_cluster_refuted` | False. The exact outcome is known in every network. Up to 3 gateways: an error, except for the smallest of three. Up to 16: from the second smallest other gateway to the largest other one, which need not contain the gateway; for the smallest gateway from the third around to itself. From 17 on, the smallest gateway gets the sixteen that follow it, never itself. From 18 on, every other gateway gets exactly the arc of the 16 nearest others, which contains it if and only if some of these lie on either side. With 17: the range contains all others, and the gateway itself under an exact condition on the two gateways before it. |
| C94 Nearness lookups do not disturb one another | `C94_interference_refuted` | False: the lookup inserts its CID into the shared ring under a read lock; a second lookup between insertion and removal finds that CID, has no gateway for it and fails. Proved for all gateways and CIDs that meet the stated nearness condition. Proved on the positive side: any number of lookups, their two parts in any order, all answer as they would alone and leave the ring as it was, when for each lookup as many gateways as it asks for are nearer to its CID than the CID of any other lookup that is for no gateway. Missing: finer interleavings (torn pointer updates); CIDs below all gateways (C44). |
| C95 Reputation events are not lost | `C95_lost_refuted` | False for clients challenged for the first time by two threads at once (check and initialisation are separate critical sections); proved for all schedules when the clients are known. |
| C96 An administrator's reputation setting takes effect | `C96_never_stored_refuted` | False in the gateway as it is: no handler creates reputation entries and the setting is refused for unknown clients. Proved for clients that are known. |
| C97 No message from the network crashes a gateway | `C97_refuted`, `C100_peerDhtOffer_refuted`, `C97_fresh_dht_refuted`, `C97_fresh_search_refuted`, `C97_fresh_group_refuted` | False: one unsigned message with a malformed identifier crashes any gateway, and before it is set up a gateway crashes on well-formed messages too. The partial theorems cover searches with well-formed identifiers. |
| C98 An acknowledged publish is in the store | `C98_list_refuted` | C98_publish: an acknowledged publish request is in the store whatever requests follow. C98_list_refuted: the listing acknowledges messages with offers that it dropped. |
| C99 A gateway relays only authenticated answers of the gateways it asked | `C99_replay_refuted` | The answers are authenticated and attributed; that they are answers to this request is false (nonces are not compared, an old signed answer is relayed). |
| C100 Whoever pays is answered | `C100_standardOffer_refuted`, `C100_peerDhtOffer_refuted` | False: paying for an offer that is no longer held loses the money without an answer. The served theorems say when the answer comes. |
| C101 The group-offer setting takes effect and is confirmed | `C101_never_succeeds_refuted`, `C101_stored_refuted`, `C101_not_notified_refuted` | False in two of its three parts: the gateway stores the setting, tells no provider, and answers with a message of another type, so that the call always fails. |
| C102 Peers are paid what they ask | `C102_topup_refuted`, `C102_unpaid_refuted` | False when the channel needs a top-up: the price of a search, or nothing, is paid. C102_partial and C102_peers_partial: exact, for any number of peers, when the channels have the funds; the refutations are for one peer. |
| C103 Nobody crashes a provider from the network | `C103_refuted`, `C103_uninitialised_refuted` | False: a malformed gateway identifier in one unsigned message crashes any provider. |
| C104 DHT offers go to the gateways near their CID | `C104_refuted` | C104_near: every gateway near a CID of the batch gets the offers, nobody else. C104_unreachable: if answers of gateways are lost, a publication that succeeds still does, so every near gateway is still sent the offers. False that a gateway gets only those it is near to: every gateway asked gets the whole batch. |
| C106 Group offers go to every gateway | `C106_refuted` | False if a registered gateway has a malformed identifier: those after it get nothing and the admin gets an error. C106_partial: whenever the admin is answered, every gateway was sent the offer, and nobody else. C106_unreachable: gateways that do not answer change nothing of that. |
| C109 FindGateways respects its arguments | `C109_refuted` | With a maximum of zero or less one gateway is returned. |
| C110 Served discovery returns the gateway's offers | `C110_dhtV2_empty_refuted`, `C110_dhtV2_limit_refuted` | All but DHT discovery v2: one gateway without offers empties its result, and a limit reached early loses the offers paid for. The honest theorems compose client and gateway. |
| C111 Concurrent calls on one client neither deadlock nor activate an unchecked gateway | `C111_refuted`, `C111_count_refuted` | Termination, absence of deadlock and soundness are proved for every schedule. The inclusion of the active gateways in those in use is false (C111_refuted: activation and removal at the same time); it is proved for schedules without removal. Two concurrent additions may both count the same gateway. C111_removed: at the moment a removal returns, none of the gateways it was given is in use, whatever runs at the same time. |
| C112 No answer crashes the client | `C112_refuted`, `C112_ack_refuted` | False: the holder of a gateway's or provider's key can make one signed answer that crashes every client that asks. C75_partial: answers that are not signed by the gateway asked, and usable signed ones, never crash a discovery call. |
| C113 The client pays only the gateway it asks, at the configured prices | `C113_price_refuted`, `C113_payee_refuted` | Holds of the standard discovery. False of the DHT discovery: a search costs num times a constant whatever is configured, and a gateway asking for payment chooses who is paid. |
| C114 Success means the gateway answered this request | `C114_standardV2_refuted`, `C114_dhtV2_refuted` | Holds of both first versions. Standard v2 hides the failure of the request it has paid for; DHT v2 accepts an answer for another CID and nonce. |
| C115 Returned offers are for the CID asked and unexpired | `C115_standardV2_refuted` | The client checks neither the CID nor the expiry of an offer; from a gateway that runs this code both hold. |
| C116 Setting up a gateway is reported faithfully | `C116_wrong_key_refuted`, `C116_lost_payments_refuted` | Holds if the key belongs to the record and the payment manager can be made; otherwise the call fails and the gateway has changed all the same. |
| C117 Only the admin can change a node | `C117_gateway_refuted`, `C117_gateway_takeover_refuted`, `C117_provider_refuted`, `C117_provider_takeover_refuted` | False: no signature of an admin message is looked at, and an unsigned message takes over any node. Only the two requests that set a gateway up change its identifier or key. |
| C118 A voucher is credited once over the whole life of a gateway | `C118_refuted` | False: after it is set up again with the same wallet a gateway credits every voucher again. No other admin request touches payments. |
| C119 Success of an admin call means that the node carried it out | `C119_gateway_replay_refuted`, `C119_provider_replay_refuted`, `C119_other_key_refuted` | Success means that the node was sent a request of this kind and that some answer of this kind, signed with the key in the record, was read; answers carry nothing of the request, so an old one can be repeated. |
| C120 Private keys are secret in transit | `C120_gateway_refuted`, `C120_provider_refuted` | False: the private keys are sent in clear. Nothing of the property is left to prove. |
| C122 Listing the offers of providers fills the gateway | `C122_refuted` | false as stated: success is written before any provider is asked, and is returned although no provider answers. Proved: for providers that are honest whenever they answer, the call succeeds and the gateway stores, and finds, every offer they listed. C122_provider also shows that the provider crashes on an acknowledgement for an offer nobody had acknowledged before. A request that says not to refresh changes nothing (C122_unasked). |
| C123 An admin works with the nodes it has set up | `C123_lookup_refuted` | False for records that write the identifier in upper case: the node is filed under one name and looked up under another. |
| C124 Setting up a provider is reported faithfully | `C124_wrong_key_refuted`, `C124_no_payments_refuted` | Holds if the key belongs to the record and the payment manager can be made; otherwise the call fails and the provider has changed all the same. Refreshing: holds. |
| C125 A successful publication has reached the gateways | `C125_group_refuted`, `C125_dht_refuted` | Success means that the offers were made as asked and sent to the right gateways; it does not depend on any gateway having received or accepted them. |
| C127 Random bytes never repeat | `C127_refuted` | Proved for calls one after the other, for any inner generator (clock after 1970). False for concurrent calls: for every digest, state and length there is a schedule in which two calls get the same bytes, since the shared digest object is used without a lock. |
| C128 Identifiers made at random are different | `C128_refuted` | As C127: proved one after the other; two goroutines can get the same identifier or the same key material. C128_keys_partial: keys generated one after the other are made of different bytes. |
| C130 Random output survives a compromised inner generator | `C130_refuted`, `C130_next_refuted` | False: the bytes handed out are the hidden state, so with a known inner generator they determine everything that follows. Holds only until the first 32 bytes are handed out. |
| C131 An entropy kick reaches every generator | `C131_refuted` | Exact for histories of calls one after the other; a generator made at the same time as another can be lost from the pool. |
| C135 Others cannot displace a provider's offer | `C135_refuted` | False: a registered provider publishes first an offer in the name of another on the same terms, with its own signature; the digest does not cover the signature, so the gateway acknowledges the real offer and drops it, and clients find only the forged one. Proved when no valid request of somebody else carries an offer in the name of the provider. |
| C136 Configured prices are the prices | `C136_suffix_refuted`, `C136_leading_zero_refuted` | Whole decimal numbers without a superfluous leading zero are read correctly, with blanks, sign and underscores, and a missing or non-numeric text gives the default. Refuted in general: a number is read only up to the first other character, so 0.001 (the notation of the comments in the code) is a price of zero and 1e18 is one; a leading zero means base eight. C136_radix covers the hexadecimal, octal and binary prefixes. C136_foreign: a character outside ASCII where the number is expected or directly after its digits makes the text no number, and the default is taken; C136_foreign_blanks: blanks outside ASCII before the number are passed over. C136_separator: an underscore that is not between two digits makes the text no number. Missing: variables whose bytes are not UTF-8. |
| C137 Configured durations are the durations | `C137_refuted`, `C137_negative_refuted` | Timeouts written as whole numbers or decimal fractions with units are used; a missing duration or one without unit gives the default. Refuted: the configured interval for asking the register is never used, gateways and providers always ask every ten seconds; a negative timeout is accepted. Missing: fractions of a nanosecond, which floating point rounds. |
| C139 A node that has started listens on all its ports | `C139_refuted` | The ports for nodes are listened on or start-up fails. Refuted: if the port for clients or the admin is taken, the error is only logged, start-up completes and nothing listens there. |
| C140 Built settings are what was set | `C140_refuted` | Each field is the last value set or the default, for all sequences of calls. Refuted for one field: the time to live returned by the settings of the gateway admin is always zero, although the package defines a default of 100 that is never used. |
| C145 A captured request cannot be used twice | `C145_refuted` | Proved for paid services: after a disclosure, no request that carries the same voucher, or another one of its lane and channel that is not higher, gets anything, until the admin sets a new wallet. False for free services: nonces are not remembered, a request is served again any number of times. |
| C146 Protocol versions are agreed on | `C146_refuted` | False: the versions of a request are never looked at, a request in any version is served alike. What is left: every answer carries the gateway's own versions and is of the kind that belongs to the request, never one about protocol changes. |
| C147 What a gateway acknowledged it does not deny | `C147_unpaid_refuted`, `C147_empty_refuted` | Proved for all ways of asking but one. False for requests of offers by digest: unpaid ones, and paid ones that list no digest, are answered with found = false for any cid. |
| C148 A client of bad reputation is served worse | `C148_refuted` | False: setting a reputation changes no answer to a client, gateway or provider. |
| C149 A better offer of a provider replaces its older one | `C149_refuted` | Proved: worse offers are kept beside the old one. False: a better offer does not replace the old one, both are handed out until the old one expires. |
| C150 A registration cannot be taken over | `C150_refuted`, `C150_offers_refuted`, `C150_deleted_refuted` | False: a second registration under an identifier replaces the first one whatever its key, its owner can then publish offers in the provider's name, and anybody can delete all registrations. What is left: a registration changes no record of another identifier or kind. |
| C152 A gateway keeps what it finds for a client | `C152_refuted` | False: searching other gateways changes nothing in the store; the next standard discovery is answered as if there had been no search. |
| C156 An establishment request of the JavaScript client lapses | `C156_refuted` | False: the time to live is added to a clock in milliseconds and compared by gateways with a clock in seconds, so for any time to live a request is still answered up to 999 times the age of the epoch later. Proved: past the sum, taken as seconds, there is no answer and the client does not go on. |
| C157 The JavaScript client finds offers | `C157_refuted`, `C157_unread_refuted`, `C157_when_refuted`, `C157_gateway_refuted` | False: whatever the network answers, no discovery returns an offer (the standard one throws at the first offer, the DHT one is a stub) and no acknowledgement is confirmed; no message a Go gateway writes can be read by the offer decoder, which does not take the body out of base64. Proved about the payment: without balance the search starts a top-up it does not await and goes out without a voucher. |
| C158 Vouchers of the JavaScript client are covered and in order | `C158_refuted`, `C158_lost_refuted`, `C158_failed_refuted` | For all interleavings: order, amounts, cover by the recorded balance. False of the money on the chain when top-ups for a recipient overlap: vouchers can exceed the channel, and a channel can be lost with what it holds. False also for a caller that awaits every top-up: a top-up whose message fails on the chain is recorded all the same. Proved when the caller awaits a top-up before the next one for the same recipient and the chain executes what it takes. |
| C159 The JavaScript client can pay from its wallet | `C159_refuted` | False: making a channel takes the nonce 0 of a wallet that has sent nothing for an error, so a new wallet can never pay, whatever is called. Proved for a wallet that has sent a message. |
| C160 Asking for the payment manager is free of data races | `C160_refuted` | False: the first look at the field is taken without the lock, so it races with the write of another call, for every pair of calls. Proved of the rest: every later access to the field is ordered with the write by the lock or comes after it. |
| C161 A node that is told it is registered is registered | `C161_refuted` | False: any answer at all counts as success, whatever its status, so at a wrong path or behind a proxy a node is told that it is registered and is not. Proved with the register service itself at the address: success is reported exactly when the record was stored, and listings are read as what is registered or as no answer. |
| C162 The environment file of a node says what the template says | `C162_refuted` | False of values that contain the character =: what follows it is not compared, so files that differ there are called equal and are not overwritten. All else proved, the comparison for files with at most one = in a line. |
| C163 Every request is answered, once | `C163_refuted` | False: a request of a client that comes late gets no answer at all, neither message nor error, at every gateway; and a relayed search or request for offers whose payment is too low gets two answers, the error 500 followed by what the full price would have bought. Every other request gets exactly one answer or breaks the handler down (C97). Refused vouchers are answered by an error before anybody is asked or paid. |
| C165 Searching a gateway's store while offers are being added | `C165_half_refuted`, `C165_crash_refuted` | False: between two statements of an addition a search by CID can return part of the offer under another Merkle root (C165_half_refuted), and a lookup by its digest crashes (C165_crash_refuted); both for every offer. What holds for every interleaving: additions are not lost and the final store answers like a sequential one (C165_kept); searches by CID and range never crash, find every offer stored before and return parts of published offers only (C165_search_partial); lookups of offers stored before are right (C165_lookup_partial). Calls that run alone are those of the sequential model (C165_alone_*). |
| C166 A top-up sends the amount it was asked for | `C166_sent_refuted`, `C166_balance_refuted`, `C166_written_refuted`, `C166_product_refuted` | False: a new channel's balance is a copy of the caller's number that shares its words, and adding to it writes into them when the array has room. For every number with room, the third top-up sends another amount (C166_sent_refuted) and another recipient's recorded balance changes (C166_balance_refuted); every amount of 20 to 38 digits in the settings, 10 FIL and more, is such a number (C166_written_refuted), and so is every product of two numbers (C166_product_refuted). What holds: with numbers without room, such as amounts of up to 19 digits and the default, every history is that of the model with plain numbers (C166_as_numbers_partial). |
| C167 A voucher buys one answer, however requests overlap | `C167_refuted` | False: on a channel the gateway has not received from before, any number of copies of one request are all served if they all look the channel up before the first enters it (C167_refuted, for standard discoveries, their offers, and discoveries asked by other gateways). On a known channel vouchers of served requests differ and pay for each answer (C167_apart_partial, C167_total_partial); the handlers' programs, run alone, are the handlers of the sequential model (C167_alone). |
| C168 A payment channel is one account, however its address is written | `C168_refuted`, `C168_over_refuted` | False: entries are kept by the text of the channel, and the address library reads t… and f…, and numbers with leading zeros, as the same address; a voucher is credited once for each of these texts (C168_refuted), so twice the balance is credited (C168_over_refuted). Within the balance as long as everyone writes the address in one way (C168_one_spelling_partial). C168_numbers: which texts of digits are addresses, and of which number. |
| C169 A node that does not answer delays only the requests to it | `C169_refuted` | False: a request that failed holds the lock of the whole pool while it waits for another request to the same node to end, and until then no request to any node begins (C169_refuted). There is no deadlock and all requests return (C169_no_deadlock, C169_returns); without such a removal a request waits only for its own node (C169_own_node_partial, C169_remover_partial). C169_pool carries C46 over to this model. |
| C170 A node's messages carry one identity, however requests overlap | `C170_refuted`, `C170_lasting_refuted`, `C170_crash_refuted` | False: nothing protects the three fields. While an identity is being set, messages can carry any mixture of the old and the new one (C170_refuted); two requests that set one can leave a mixture for good (C170_lasting_refuted); a request during the first set-up can find a key without a version and crash (C170_crash_refuted). True if no request meets another half-way (C170_apart_partial) or none is being set (C170_steady_partial). |
| C173 The Merkle trees of the JavaScript client are those of the gateway and the provider | `C173_same_root_refuted`, `C173_six_leaves_refuted`, `C173_caller_list_refuted` | False: the leaves are hashes of the texts of the CIDs (in Go the CIDs themselves), so the roots differ for every list (C173_same_root_refuted); a node without a neighbour is moved up instead of hashed with itself (C173_six_leaves_refuted); the constructor pushes onto the caller's list when its length is odd. Proved: proofs verify, absent contents are refused unless their hash is the root, and roots agree over equal leaves when their number is a power of two. |
| C176 A server that does not answer holds up only its own callers | `C176_held_up_refuted`, `C176_queue_refuted` | False: the mutex of the communicator is held over the whole exchange, so while one server is silent every other call of the library waits, up to 180 seconds for each such call before it (C176_held_up_refuted for every schedule, C176_queue_refuted for every number of calls). Proved: one exchange at a time, 180 seconds per turn, nobody waits longer than 180 seconds for every call made, no deadlock. |
| C177 Offers published and listed at the same time | `C177_lost_refuted`, `C177_endless_refuted`, `C177_bound_refuted` | False: the ring of CIDs has no lock. Two offers published at the same time with no offered CID between them: the one that writes first is stored and found by its CID but is in no listing of any range. Two listings at the same time: a listing whose bound the other one removes walks the ring for ever. An offer of a CID that is published while a listing from that CID is about to end: stored and found by its CID but in no listing of any range. Proved: any number of publications, in any order of their parts, with an offered CID between any two of theirs, leave every later listing right; and any number of listings between offered CIDs, all parts in any order together with those publications, come to an end, change nothing for the publications, and answer all CIDs of the range that were offered before the listing began. Insert, GetWithinRange and AddDHTOffer are proved equal to the composition of their parts. The bounds may also be CIDs that are not offered, if an offered CID lies between any two that are published or bounds, and below and above each, and no two requests share one: then listings put their bounds on the ring and take them off again without harm to each other or to publications. Missing: other interleavings, and torn reads. |
| C178 Lookups give back their connections to the database | `C178_exhausted_refuted` | False: a search by digest that finds its offer, and a listing that comes to its limit, leave their result set open, and the connection is never given back. Whatever the number of connections that can be in use, an offer on sale is found by its digest as often as there are connections but one, the next search crashes, and from then on nothing is found by content, range or digest and nothing can be stored (C178_exhausted_refuted). Proved: how many connections every history keeps, and that it is answered as with connections without end while there is room (C178_exact); that none is ever given back (C178_never_back); that a gateway keeps one for every offer it sells (C178_sold); that histories without searches by digest and without limited listings keep none (C178_given_back_partial). |
| C179 What is credited can be collected | `C179_terms_refuted`, `C179_settled_refuted`, `C179_answered_refuted` | False: Receive looks at channel balance, payer, payee, lane, nonce and amount only. Wherever a voucher is credited its payer can sign the same voucher under a time lock, a secret they keep or a call they choose, and it is credited the same though it cannot be collected (C179_terms_refuted); a settled channel is credited like an open one (C179_settled_refuted); a gateway answers a search paid with a voucher nobody can ever collect (C179_answered_refuted). Proved: every voucher that Pay issues, in every history, can be collected at every epoch on the channel named while that is not settled (C179_own_partial), and is signed over what Receive checks (C179_signed). What the chain asks of a voucher is the specification Collectable, from the documentation of the fields. |
| C180 A gateway that is stopped and started again | `C180_silent_refuted`, `C180_renamed_refuted`, `C180_voucher_refuted` | False: offers survive, the rest does not. C180_kept: whatever lives came before and after and wherever they were cut, an acknowledged offer is found by every later life that opens the file of the same name; C180_client: and a client of that life finds an offer on its terms, a genuine one if every publisher of the provider signs its offers itself; C180_only: whatever is found was brought by a request of one of the lives, exactly so if no life was cut, and otherwise with some of its contents (a truncated offer can be served, see C88); C180_moments: the databases left by a cut after any statement are covered; C180_ready: set up again it serves as before. But key, identifier and wallet are gone and it is silent until its admin sets it up again (C180_silent_refuted), a machine or container of another name opens another, empty file (C180_renamed_refuted), and with the same wallet it credits every old voucher again in full (C180_voucher_refuted). The file is named after the machine, not the gateway, so that a second gateway on the machine serves the offers of the first (C180_kept with another key in the later lives). One process at a time; requests one at a time. |
| C181 Waiting for the chain holds up nobody else | `C181_new_recipient_refuted`, `C181_known_recipient_refuted`, `C181_first_voucher_refuted` | False: a top-up to a new recipient waits for its receipt under the lock of all outbound channels, so that no payment and no other top-up returns before (C181_new_recipient_refuted, for any other threads and schedule); a top-up to a known recipient holds that lock for reading, and one attempt to top up a new recipient then closes it for everybody (C181_known_recipient_refuted); the first voucher of a channel asks the chain under the lock of all inbound channels (C181_first_voucher_refuted). Proved: no deadlock, bounded completion, exclusion and no lock left behind for any calls and schedule (C181_completes); a resting call holds up nobody that it does not clash with (C181_others_go_on_partial). |
| C182 Top-ups that overlap all take effect | `C182_two_known_refuted` | False: top-ups to two recipients that both have a channel can be told the same message number, and the chain executes at most one message of a number (C182_two_known_refuted, for any two recipients and any number). Proved: when of any two top-ups one is to a new recipient or both are to the same one, all numbers differ under every schedule (C182_numbers_differ_partial). |
| C183 A payer that is stopped and started again | `C183_stranded_refuted` | False in its second half. C183_credited: the vouchers of all lives, shown to the gateway as they are issued, are each credited with exactly what was paid, provided that the chain gives new channels new addresses. C183_stranded_refuted: the channels are kept in memory only, so that after a restart nothing can be paid until a new top-up has opened another channel, and no voucher is ever issued again on the old one: what was topped up and not spent is out of reach of this software. |
| C184 A provider that is stopped and started again | `C184_forgets_refuted`, `C184_client_refuted` | False: nothing that a provider knows outlives the process. After any earlier lives, until it publishes again, it tells its admin that it has published nothing, gateways that it has no offers and clients that it has no acknowledgements; FindOfferAck of a client then returns false for whatever offer of an earlier life, although the gateway still serves it. |
| C185 A silent node holds up only the calls about it | `C185_features_refuted`, `C185_ask_refuted` | False: the book of the nodes in use is locked over the exchange with a node. While UpdateGatewaySupportedFeatures waits for a silent node, every other call of the library waits too, also those that are refused without a message (C185_features_refuted, for any other threads and schedule); while any other call waits, the end of one successful initialisation has the same effect, and is itself held up (C185_ask_refuted). Proved: no deadlock, bounded completion, exclusion, no lock left behind; calls that do not clash go on. |
| C186 Settings without keys are refused, whatever is logged | `C186_client_refuted`, `C186_admin_refuted` | False: the refusal is a log message at the level of panics, and a message below the level that is set does nothing. With the level given as the empty text (NoLevel of zerolog 1.23, above panic) Build returns settings without the keys, for every sequence of calls without them. Proved for every level up to panic and for texts that are no level: Build panics exactly if a key is missing, and the settings have the keys set last. That a disabled message does nothing is behaviour of the logging library at that version; its source is not in the sandbox, so this is part of the trusted base. |
| C187 A peer that is slow holds up nobody else at a provider | `C187_admin_refuted`, `C187_client_refuted` | No deadlock, and a gateway that does not answer holds up nobody. False of readers: the lock of the acknowledgements is held while a client's answer is written, and that of the offers while the admin's is, with no time-out; a client that does not read stops every publication of DHT offers and every listing, and with them all other clients. Proved for requests that use other records. |
| C188 A gateway that is slow holds up only the calls about it, in the client library | `C188_deactivate_refuted`, `C188_remove_refuted`, `C188_chain_refuted` | No deadlock; and while an activation or a request for a proof waits, every call that talks to nobody returns. False of searches: the list of active gateways is held for reading over the whole search, payments and waits for the chain included, so a call that takes any gateway off a list does not return, and as soon as one waits, no other call that uses a list does, whichever gateway it is about. Proved for calls that do not clash. |
| C190 What the JavaScript client takes for offers is a signed answer to its question | `C190_other_cid_refuted`, `C190_search_refuted` | Holds: the answer is signed under the key of the registration and carries the nonce and the offers. False: the content identifiers are compared as they print, and all print as [object Object], so an answer about one is taken for every other; the result of verifying the answer to the first request is thrown away. |
| C191 A gateway understands what the JavaScript client asks in a discovery | `C191_search_refuted`, `C191_offers_refuted` | False: the search request has an empty body, which every gateway refuses as malformed; of a request for offers the names of the members differ, so no content identifier, digests or channel is read, and the gateway looks up the content identifier of 32 zero bytes. Holds: the nonce and the voucher are read as they were sent. |
| C192 A discovery of the JavaScript client costs the price of the searches it makes | `C192_dht_refuted` | Holds for standard discovery, whatever the network answers, and without an active gateway. False for DHT discovery: it issues two vouchers, of n search prices each, although it asks nobody and returns nothing. |
| C193 The JavaScript client reads the key version of a signature | `C193_read_refuted`, `C193_signature_refuted`, `C193_never_refuted` | Holds: the bytes written are Go's. False: no version at all is read right, since the client takes the four bytes for the characters of a decimal number; of every version below 150994944 it reads NaN. |
| C194 What the JavaScript client signs is the message | `C194_bound_refuted`, `C194_message_refuted` | Holds: the signature verifies, here and in Go, for the text that was signed. False: that text is the values one after the other, without names and boundaries, so different messages share a signature; and a message that carries the client's own signature is refused by the client itself, which verifies the JSON text. The client never sends a signed message. |
| C195 An offer that the JavaScript client keeps is genuine, and tells what it holds | `C195_kept_refuted`, `C195_told_refuted` | Holds: the limit, if it is at least one. False: both checks are empty functions, so the first offers are kept whatever is in them, one also if none is asked for; every offer answers with the same constants (price 42, no provider, no signature). The loop gets to an offer only if somebody makes instances of the class; JSON.parse does not (C157). |
| C196 Gateways on one machine keep their offers apart | `C196_refuted` | False: the file of the database is named after the container or else the machine, and not after the gateway, so two gateways without container on one machine find and sell each other's offers (C196_refuted, whatever else is added before and after). C196_lookup: a lookup finds exactly the unexpired offers for the content that gateways of the same name were given, and C196_range says the same of listings. C196_partial: a gateway whose name no other has finds only its own. Adds of different gateways are whole steps. |

## Plan per property

| id | model | proof |
|----|-------|-------|
| C01 | `Model/Ring`: heap of nodes, `insert` step by step | representation invariant `Rep ring l` (l strictly sorted), induction over the insertions |
| C02 | `remove` | refutation by witnesses (one entry; smallest of three); exact result in all other cases from `Rep` |
| C03, C66 | `getClosest` | loop invariant: result is a contiguous arc around the target, frontier distances exceed all returned ones; witness for num > Size |
| C04 | `getClosest`, `getWithinRange` | witness for targets below the smallest key; otherwise `Rep` is restored |
| C05 | `getWithinRange` | arc walk against filter specification |
| C06 | `getClosest` with exclusion | as C02 + C03 |
| C07 | `getDist` | arithmetic; telescoping sum over `Rep` |
| C08, C09 | `Model/Ids` with byte-level hex and base64 | codec round trips |
| C10 | `SortClockwise` on lists | permutation and order by induction |
| C11 | `GetDistance` | arithmetic |
| C12-C15, C67, C68 | `Model/Merkle`: cbergoon tree levels, proofs, binary form | induction over levels; collision extraction |
| C16-C19 | `Model/Offer` | injectivity of the pre-image; codec round trips |
| C20-C25, C69 | `Model/OfferMgr` (nested maps, ring) | refinement to a set of accepted offers; invariant over histories |
| C23 | interleaving model of `add`/`get` | witness schedule; positive theorem for distinct CIDs/serial schedules |
| C26, C87 | `Model/SqlOffer` tables as lists, lookups with SQLite's date arithmetic | refinement over histories; witnesses |
| C88 | `interrupted`, `fails` in `Model/SqlOffer` | prefixes of the statements; witnesses |
| C165 | `Model/SqlConc`: every statement of every call is a step, any schedule | invariant over schedules; order of the additions tracked as a permutation; witnesses for all offers |
| C27, C28 | `Model/Message` (envelope, down to the JSON bytes) | round trip through the text; algebra of the abstract scheme; witness |
| C29 | `Model/Codecs` (all sixty kinds), `kinds` in `Spec/Codecs` | finite table of codes lifted to the decoders; witnesses for 205 and 206 |
| C30 | `Model/Wire` (structs with tags), `Model/Codecs` | one generic round trip for structs, one theorem per kind |
| C89 | the decoders of `Model/Codecs` | totality of the decoders that cannot crash, witnesses for the fifteen that can |
| C31, C32, C90 | `Model/Tcp` streams of chunks and passing deadlines | round trip over all chunkings; witnesses for back-to-back messages and for pauses |
| C33, C34, C70, C71 | `Model/Crypto` | codec round trips; witnesses |
| C166, C35 (shared numbers) | `Model/BigInt`: arrays of words, `Add` in place when there is room, numbers copied by value | refinement to `Model/Payment` by an invariant (each balance owns its array or shares one without room); witnesses for all numbers with room |
| C35-C38, C62 | `Model/Payment` | ledger invariants over histories, refinement to sums |
| C167 | `Model/GatewayConc`: the six paid handlers as programs whose shared accesses are steps, any schedule | invariant over schedules (every disclosure has a credited `Receive` behind it; credits on a lane follow one another); rounds of n copies for the witness |
| C168 | `Model/FilAddress`: which texts go-address reads as the same address, over `Model/Payment` | induction over the list of spellings; reduction to C37 for one spelling |
| C169 | `Model/PoolWait`: the pool of C46 with the lock of the pool held while a removal waits | a measure that every step lowers; waiting classified; refinement to `Model/Pool`; a standstill kept by every step for the witness |
| C170 | `Model/Identity`: each read and write of identifier, key and version a step | invariant for schedules a readers–writer lock would allow; all eight mixtures as witnesses |
| C171 | `Model/ProviderRecords`: what is done under one lock a step | invariant: records are a permutation of what the requests have put in, each request's in order; over requests stay over |
| C39, C40 | thread model of `Receive`/`Topup` | witness schedules; positive theorem once the channel entry exists |
| C43, C44, C72, C91, C92, C93 | `Model/RegMgr`: tables, ring, rounds, lookups, shutdown, one call at a time | last-report fold over all histories; reuse of the ring theorems; witnesses for the failing cases |
| C41, C42, C45, C94 | `Model/RegLocks` over `Model/RWLock` (reader/writer locks with announced writers), `Model/RegRefresh` (refresh channel), `Model/RegNear` (a lookup in two parts), `Model/NearMany` (any number of such lookups, their parts in any order) | ordered-lock theorem over all interleavings; channel invariant; witness schedules; interference from C03 on the ring that holds the other CID; for lookups apart, an invariant: the ring is that of the gateways and of the CIDs of the lookups under way |
| C46 | `Model/Pool` threads on one pool | counting invariant over all interleavings; witnesses |
| C47 | `Model/P2P` both servers | refinement of the handler table; trace of the serving loop |
| C48, C95, C96 | `Model/Reputation` (wrapping int64; threads of locked accesses) | refinement to unbounded integers; linearisation; witnesses |
| C49-C52, C73, C76, C77, C97-C100, C102, C163 | `Model/Gateway` handlers | decision logic, witnesses |
| C53-C57, C74, C103-C108, C164 | `Model/Provider` handlers | list lemmas, invariants over histories, witnesses |
| C58-C61, C63, C64, C75, C109-C115 | `Model/Client`, `Model/ClientConc` for concurrent calls, with `Model/Gateway` and `Model/Provider` for the honest cases | decision logic, invariants over call histories and interleavings, composition, witnesses |
| C124-C126 | `Model/Admin`, `Model/Provider`, `Model/ProviderMain`, composed by `Spec/AdminProvider` `BehindProvider` | composition with the provider theorems over all histories (C57, C104, C106, C108) |
| C101, C116-C121, C123 (and C97 for a gateway that is not set up) | `Model/GatewayAdmin` (the gateway's node state and admin handlers), `Model/Admin` (both admin libraries), composed by `Spec/Admin` `Behind` | composition of the requester, the codec and the handler; invariants over call histories; replay witnesses for every call |
| C122, C133 | `Model/GatewayAdmin`, `Model/Admin`, `Model/Provider`, composed by `Spec/Listing` `Honest`, `Answers` | composition of admin, gateway and provider over all provider histories; witnesses |
| C134, C135 | `Model/Admin`, `Model/Provider`, `Model/Gateway`, `Model/Client`, composed by `Spec/Journey` `Ready`, `Lived`, `Uses` | composition over the histories of provider and gateway, with the bound on Merkle proofs of `Lemmas/ProofSize`; C135 refuted for all pairs of providers, with a witness under key-dependent signatures |
| C172 | `Model/Client` `findStandardV2`, `Model/Gateway` `standardV2`, `standardOffer`, `Model/Payment`, composed by `Spec/PaidJourney` `InStep`, `Trades`, `Continues` | one payment keeps payer and payee in step; traffic of others leaves the channel alone (induction over histories); composition with C52, C98, C110; search after search by induction on the list of searches (`Spec/PaidStory`) |
| C173, C174 | `Model/JsMerkle` (merkletreejs 0.2.22 with default options, from its documentation) beside `Model/Merkle` | induction over layers: climbing a generated proof leads to the top; equal roots lead down to equal leaves; a power of two of leaves has no node without a neighbour |
| C175 | `Model/Dump`: rows, padding, `printable` | induction over the rows; a reader of printouts in `Spec/Dump` gives the bytes back |
| C176 | `Model/HttpWait`: calls, mutex and clock of one communicator | invariant over all schedules: who holds the mutex, and how many calls returned since a waiting call was made; the queue of any length by induction |
| C177 | `Model/RingShared`: `Insert` as search and write, `GetWithinRange` as begin, walk and end; any number of publications, two listings interleaved, a publication and a listing interleaved; `Model/RingListed`: any number of publications and of listings | the parts composed are the functions of `Model/Ring`; heap lemmas on two splices of one list, of one gap or of two; a node no longer reached; an invariant of the schedule: every call that has searched holds its own gap of the list; a listing between offered bounds only reads, and stands on a node that stays on the growing list; one between other bounds puts them on the list like a publication and takes them off, its neighbours in the list being those of no other request; a walk that never meets its end by induction on the number of steps |
| C178 | `Model/SqlConn`: the lookups of `Model/SqlOffer` with the connections in use as state and the number that can be in use as parameter `room`; a statement without a connection fails | the lookup with room is that of `Model/SqlOffer` by induction on the rows; exact count of kept connections by induction on the history; exhaustion as a state that every call leaves as it is |
| C179 | `Model/VoucherTerms`: the fields of a voucher that `Pay` leaves empty travel with the signature of `Model/Payment`; `Collectable` is the condition under which the chain redeems | the outcome of `Receive` depends on the signature only by whether it is good for the payer; composed with C49; the fields of issued vouchers from C36 |
| C180 | `Model/Restart`: the file name of the database, the node that a start makes of a disk, lives one after the other, each possibly cut inside a request | an invariant of the tables that holds of every prefix of them (every row belongs to an offer that was brought, keys are unique) and one that insertion sets up and growth keeps (all rows of an acknowledged offer); the sorted rows of an offer are determined by their set; induction over lives; for the client, composed with the discovery of `Journey` |
| C196 | `Model/SharedDisk`: adds at any gateways of a machine, each to the file that its name gives | induction over the history: each file is what a single store makes of the offers given to gateways of its name; then C26 |
| C181 | `Model/PayLocks` over `Model/RWLock`: the lock operations of `Topup`, `Pay` and `Receive`, for each way through them | ordered-lock discipline for completion; a thread that rests is erased from the run when its locks clear the others' (simulation), and its write lock, or its read lock with an announced writer, is invariant otherwise |
| C182 | `Model/PayNonce`: the question for the next message number and the sending of the message, as steps of top-ups that exclude each other as in C181 | invariant: one call under its locks, the number it was told is the node's next |
| C183 | `Model/PayLives`: each life of a payer is a history on a fresh manager | what `Receive` does on a channel depends on and changes that channel only; every voucher is on a channel opened in its life; so each life is an instance of C38; induction over lives |
| C184 | `Model/ProviderRestart`: a life of a provider starts from an empty core | invariant: without publications the records, acknowledgements and DHT offers stay empty, listings and their acknowledgements included; composed with the client's check of C64 |
| C185 | `Model/AdminLocks` over `Model/RWLock`: the lock operations of the two administration libraries, with the mutex of the communicator | as C181; and a lock that is held by a thread that rests is never taken for writing (invariant on what the others have left to do) |
| C186 | `Model/Logging`: the level of logging, and the builders of C140 with refusals that depend on it; how level names are read is a parameter | case analysis over the last calls of the setters, as C140 |
| C187 | `Model/ProviderLocks` over `Model/RWLock`: the lock operations on the two records of a provider, with exchanges with gateways and writing of answers as steps at which a thread may rest | as C185; a thread that waits for a gateway holds nothing, by balance of its remaining operations |
| C188 | `Model/ClientLocks` over `Model/RWLock`: the lock operations of every call of the client library, those of the payment manager (`Model/PayLocks`) and the mutex of the communicator included; exchanges and waits for the chain are steps at which a thread may rest | as C187; one order for all locks; a thread that waits for an activation or a proof holds the mutex of the communicator only |
| C189 | `Model/Startup` and `Model/RegMgr`: the manager as each program creates it | by induction on the answers; the records by C43 |
| C65 | `Model/Register` | refinement to a finite map |
| C78-C82 | `Model/Payment` | witnesses; ledger invariants over histories |
| C83 | `Model/Ids` `mapFromString` | decision logic; witness |
| C84, C85 | `Model/Offer` | 64-bit arithmetic; exact panic conditions; witnesses |
| C86 | `Model/KeyId` | algebra over the abstract hash |
| C127-C132 | `Model/Prng`: the generator over an arbitrary inner generator and digest, the pool, concurrent readers as threads of single accesses | counter invariant over histories with collision extraction; lockstep schedules for every state; functional dependence of later output on earlier output |
| C136, C137 | `Model/Config`: `fmt.Sscan` into a big integer and `time.ParseDuration` character by character, `Map` | texts described by inductive grammars (`Spec/Config`); induction over numerals; witnesses for every tail |
| C138, C139 | `Model/Startup`: the handler tables of both `main` functions over `Model/P2P`, and which ports can be bound | refinement of the handler table (C47) instantiated with both tables; induction over the ports |
| C142-C144 (and C50 over a whole life) | `Model/GatewayLife`: the admin's requests and all others in one history from the start, over `Model/GatewayAdmin` and `Model/Gateway` | invariants over all histories, refinement to the database of C26, composition with the handlers |
| C145-C149, C152 (what the documentation promises about gateways) | `Model/GatewayLife`, and `Spec/GatewayPromise` for what it means to deny an offer and what a request carries | invariants over all histories (payments only grow; acknowledged offers are found), frames of the handlers; the promises the code does not keep are refuted for all histories |
| C150 (what the documentation promises about registrations) | `Model/Register`, composed with `Model/Gateway` | from C65 and C52, for all histories |
| C140 | `Model/Settings`: the three builders | reverse induction over the calls |
| C151, C155, C156 | `Model/ClientJs`; C151 and C156 against `Model/GatewayLife` | agreement of the two programs on JSON text (C153), hex, base64 and the text that is signed, by induction over texts; histories of calls by invariant |
| C157 | `Model/JsDiscovery` | case analysis over every path of the three calls; the first character of base64 of a JSON object |
| C190 | `Model/JsDiscovery`: the two requests of standard discovery, over any network | from a list that is returned back to the text that was verified, by the JSON grammar of C153; both failures for all answers |
| C191 | `Model/JsDiscovery`: the two encoders; `Model/Codecs` and `Model/Gateway`: the decoders and handlers of a gateway | what the Go decoders make of every message the client can send, member by member; then the handler on it |
| C192 | `Model/JsDiscovery`, `Model/JsPayment`: the charges of both discoveries | the effect of one payment on a channel with enough on it, once and twice, for every network |
| C193 | `Model/JsSigning`: `Number(text)` as ECMAScript defines it, the bytes of key versions | the bytes by arithmetic; reading by the first character, which can start no number, and for larger versions by the shapes of literals of at most four characters: their values are small, or divisible by a power of two by which the last character is not |
| C194 | `Model/JsSigning`: what is signed; `Model/ClientJs`: what is verified | the round trip for every message; equal texts of different messages; the first character of the two texts differs |
| C195 | `Model/JsOffer`: the class of offers and the loop that sifts them | what is kept, exactly, by induction over the offers |
| C158, C159 | `Model/JsPayment`: payments and the steps of top-ups between two awaits as events, messages that fail on the chain included; what a voucher entitles to in `Spec/JsPayment` | invariants over all histories: books against vouchers, books against chain for orderly callers |
| C141, C160 | `Model/LazyInit`: `PaymentMgr` cut into single reads, writes and lock operations; any number of calls, a schedule of call numbers | invariant over all schedules (who holds the lock, what the field can be at each point); a measure for termination; the race shown for every pair of calls |
| C161 | `Model/Http`: what the HTTP helper makes of an outcome; the register as seen over HTTP, its store up or down | induction over histories of calls, composed with C65; the refutation for every status |
| C162 | `Model/EnvFile`: the tool on texts; what a file says in `Spec/EnvFile` | the comparison is shown to be equality of the values of each name; induction over lines |
| C153 | `Model/JsonText`, against the grammar of RFC 8259 in `Spec/JsonGrammar` | completeness by induction over the grammar, soundness by induction over the fuel of the parser |
| C154 | `Model/Codecs` over `Model/Wire`; names and shapes in `Spec/WireFormat` and in the statements themselves | one lemma about structs with tags, applied to the sixty kinds; C153 for the layouts |
