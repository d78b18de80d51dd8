import Verif.Spec.Client
/-! Answers which a client can use. -/

namespace FcRetrieval.Client
open FcRetrieval.Ids (Id)
open FcRetrieval.Message (Msg)
open FcRetrieval.Register (Record)
open FcRetrieval.Wire (encode decode)
open FcRetrieval.Codecs

variable {Sig : Type}

/-- Reading the answer does not crash, the CID in it is one, and its offers have their parts. -/
structure Usable (a : Msg) : Prop where
  standard : ∀ cid nonce found offers funded, decode clientStandardDiscoverResponse a = .ok (cid, nonce, found, offers, funded) →
    cid ≠ none ∧ ∀ o ∈ offers, Whole o
  standardV2 : ∀ cid nonce found digests funded required ch,
    decode clientStandardDiscoverResponseV2 a = .ok (cid, nonce, found, digests, funded, required, ch) → cid ≠ none
  standardOffer : ∀ cid nonce found offers funded required ch,
    decode clientStandardDiscoverOfferResponse a = .ok (cid, nonce, found, offers, funded, required, ch) → cid ≠ none ∧ ∀ o ∈ offers, Whole o
  dht : decode clientDHTDiscoverResponse a ≠ .panic ∧ ∀ ids answers missed nonce required ch,
    decode clientDHTDiscoverResponse a = .ok (ids, answers, missed, nonce, required, ch) → ∀ m ∈ answers, ∀ cid nonce' found offers funded,
      decode gatewayDHTDiscoverResponse m = .ok (cid, nonce', found, offers, funded) → ∀ o ∈ offers, Whole o
  dhtV2 : decode clientDHTDiscoverResponseV2 a ≠ .panic
  dhtOffer : decode clientDHTDiscoverOfferResponse a ≠ .panic

end FcRetrieval.Client
