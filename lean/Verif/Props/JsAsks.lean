import Verif.Props.JsOffers
import Verif.Model.Gateway
/-!
# C191: what a gateway makes of the discovery of the JavaScript client
-/

set_option linter.unusedSimpArgs false

namespace FcRetrieval.Js
open FcRetrieval.JsonGrammar
open FcRetrieval.Wire
open FcRetrieval.Message (Msg)
open FcRetrieval.Codecs (clientStandardDiscoverOfferRequest clientStandardDiscoverOfferResponse clientStandardDiscoverRequestV2)

/-- A message of this client without a signature, as Go reads it. -/
theorem sent_read (code : Int) (hc : inI32 code) (body : Bytes) :
    Message.fromBytes (utf8Bytes (toSend (ofMembers [("message_type", .num code), ("message_body", .str (b64Encode body))]))) =
      .ok (Message.create Message.defaultProtocol code (some body)) := by
  have hw := stringify_whole (.obj [("message_type", .num code), ("message_body", .str (b64Encode body)),
    ("protocol_version", .num 1), ("protocol_supported", .arr [.num 1, .num 1]), ("message_signature", .str [])])
  have he : toSend (ofMembers [("message_type", .num code), ("message_body", .str (b64Encode body))]) =
      stringify (.obj [("message_type", .num code), ("message_body", .str (b64Encode body)),
        ("protocol_version", .num 1), ("protocol_supported", .arr [.num 1, .num 1]), ("message_signature", .str [])]) := by
    simp [toSend, ofMembers, field, member]
  rw [he]
  refine C153_message ?_ ?_ hw
  · refine ⟨hc, (⟨by decide, by decide⟩ : inI32 1), ?_⟩
    intro l hl
    cases hl
    intro n hn
    simp only [List.mem_cons, List.not_mem_nil, or_false, or_self] at hn
    subst hn
    exact ⟨by decide, by decide⟩
  · intro x hx
    refine carries_mem ?_ (by simp only [List.map_cons, List.map_nil]; decide +kernel)
    simp only [messageMembers, List.mem_cons, List.not_mem_nil, or_false] at hx
    rcases hx with rfl | rfl | rfl | rfl | rfl <;> simp [Message.create, Message.defaultProtocol, Message.intsJson, jsonBytes]

/-- **C191 (refuted)**, the search: every gateway reads the request as a search, and refuses it as malformed. -/
theorem C191_search_refuted {Sig : Type} (E : Gateway.Env Sig) (c : Gateway.Core Sig) :
    ∃ m, Message.fromBytes (utf8Bytes (toSend encodeSearch)) = .ok m ∧ m.type = 108 ∧ Gateway.standardV2 E c m = (c, [.status 400]) := by
  refine ⟨_, sent_read 108 ⟨by decide, by decide⟩ [], rfl, ?_⟩
  have : decode clientStandardDiscoverRequestV2 (Message.create Message.defaultProtocol 108 (some [])) = .err := by
    unfold decode
    rfl
  unfold Gateway.standardV2
  rw [this]

/-- **C191 (partial)**: what a gateway reads from a request for offers: the nonce, the time and the voucher are as sent.  Missing: the content identifier, the digests and the payment
channel, of which nothing is read (the content identifier is zero). -/
theorem C191_offers_partial (id : List Char) (nonce ttl : Int) (hn : inI64 nonce) (ht : inI64 ttl) (voucher : List Char) :
    ∃ m, Message.fromBytes (utf8Bytes (toSend (encodeOffers (plainCid id).json nonce ttl voucher))) = .ok m ∧ m.type = 110 ∧
      decode clientStandardDiscoverOfferRequest m = .ok (some (List.replicate 32 0), nonce, ttl, [], [], voucher) := by
  refine ⟨_, sent_read 110 ⟨by decide, by decide⟩ _, rfl, ?_⟩
  unfold decode
  rw [if_neg (by simp [Message.create, clientStandardDiscoverOfferRequest])]
  have hp : Message.parseText (utf8Bytes (stringify (.obj [("pieceCID", (plainCid id).json), ("nonce", .num nonce), ("ttl", .num ttl), ("voucher", .str voucher)]))) =
      some (.obj [("pieceCID", (plainCid id).json), ("nonce", .num nonce), ("ttl", .num ttl), ("voucher", .str voucher)]) := by
    unfold Message.parseText
    rw [utf8Text_bytes]
    exact C153_read (stringify_whole _)
  have m1 : ∀ j n t v, memberFor "piece_cid" [("pieceCID", j), ("nonce", n), ("ttl", t), ("voucher", v)] = none := fun _ _ _ _ => rfl
  have m2 : ∀ j n t v, memberFor "nonce" [("pieceCID", j), ("nonce", n), ("ttl", t), ("voucher", v)] = some n := fun _ _ _ _ => rfl
  have m3 : ∀ j n t v, memberFor "ttl" [("pieceCID", j), ("nonce", n), ("ttl", t), ("voucher", v)] = some t := fun _ _ _ _ => rfl
  have m4 : ∀ j n t v, memberFor "offer_digests" [("pieceCID", j), ("nonce", n), ("ttl", t), ("voucher", v)] = none := fun _ _ _ _ => rfl
  have m5 : ∀ j n t v, memberFor "payment_channel_address" [("pieceCID", j), ("nonce", n), ("ttl", t), ("voucher", v)] = none := fun _ _ _ _ => rfl
  have m6 : ∀ j n t v, memberFor "voucher" [("pieceCID", j), ("nonce", n), ("ttl", t), ("voucher", v)] = some v := fun _ _ _ _ => rfl
  have d1 : decI64 (some (.num nonce)) = some nonce := by unfold decI64 decNum; exact if_pos hn
  have d2 : decI64 (some (.num ttl)) = some ttl := by unfold decI64 decNum; exact if_pos ht
  simp only [Message.create, Option.getD_some, hp, Res.ofOption, bind, Res.bind, decObj, clientStandardDiscoverOfferRequest, decFields, m1, m2, m3, m4, m5, m6, str, i64, slice, d1, d2,
    decStr, pure]
  rfl

/-- **C191 (refuted)**, the offers: whatever a gateway has and whatever was paid, each message it answers with says, to who can read it, that nothing was found, for the content
identifier zero. -/
theorem C191_offers_refuted {Sig : Type} (E : Gateway.Env Sig) (hpr : Codecs.ProtocolOk E.pr) (c : Gateway.Core Sig) (id : List Char) (nonce ttl : Int) (hn : inI64 nonce) (ht : inI64 ttl)
    (voucher : List Char) :
    ∃ m, Message.fromBytes (utf8Bytes (toSend (encodeOffers (plainCid id).json nonce ttl voucher))) = .ok m ∧ m.type = 110 ∧
      ∀ x, .message x ∈ (Gateway.standardOffer E c m).2 →
        ∃ required, decode clientStandardDiscoverOfferResponse x = .ok (some (List.replicate 32 0), nonce, false, [], [], required, []) := by
  obtain ⟨m, h1, h2, h3⟩ := C191_offers_partial id nonce ttl hn ht voucher
  refine ⟨m, h1, h2, ?_⟩
  have hresp : ∀ required x, Gateway.Out.message x ∈ Gateway.respond E c clientStandardDiscoverOfferResponse (.status 400) (.status 500)
      (some (List.replicate 32 0), nonce, false, [], [], required, []) →
      decode clientStandardDiscoverOfferResponse x = .ok (some (List.replicate 32 0), nonce, false, [], [], required, []) := by
    intro required x hx
    obtain ⟨m1, e1, _, _, _, e5⟩ := Codecs.C30_clientStandardDiscoverOfferResponse E.pr hpr (some (List.replicate 32 0)) nonce false [] [] required [] ⟨_, rfl, by simp [Ids.Proper]⟩ hn (by simp)
    unfold Gateway.respond at hx
    rw [e1] at hx
    dsimp only at hx
    unfold Message.sign at hx
    split at hx
    · rename_i s hs
      split at hs
      · cases hs
      · rename_i sig _
        simp only [Prod.mk.injEq, and_true] at hs
        simp only [List.mem_cons, List.not_mem_nil, or_false, Gateway.Out.message.injEq] at hx
        rw [hx, ← hs]
        exact (e5 sig).2
    · simp at hx
  intro x hx
  unfold Gateway.standardOffer at hx
  rw [h3] at hx
  dsimp only at hx
  split at hx
  · simp at hx
  · split at hx
    · simp at hx
    · exact ⟨_, hresp _ _ hx⟩
    · split at hx
      · exact ⟨_, hresp _ _ hx⟩
      · exact ⟨_, hresp _ _ hx⟩

/-- In particular a search for `a`, with a nonce and a time in milliseconds. -/
example : inI64 5 ∧ inI64 1794960578000 ∧ Codecs.ProtocolOk Message.defaultProtocol := ⟨⟨by decide, by decide⟩, ⟨by decide, by decide⟩, Codecs.defaultProtocolOk⟩

end FcRetrieval.Js
