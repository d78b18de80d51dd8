import Verif.Spec.GatewayPromise
/-!
# Specification vocabulary: how often a gateway answers
-/

namespace FcRetrieval.Gateway
open FcRetrieval.Message (Msg)
open FcRetrieval.Wire (decode)
open FcRetrieval.Codecs

variable {Sig : Type}

/-- The requester gets to see this: a message, an error status, or the message that says that the request is not valid. -/
def Out.answers : Out Sig → Bool
  | .message _ | .status _ | .invalid => true
  | _ => false

/-- The handler broke down. -/
def Out.breaks : Out Sig → Bool
  | .panic => true
  | _ => false

/-- The number of answers that the requester gets. -/
def answers (o : List (Out Sig)) : Nat := (o.filter Out.answers).length

/-- How often the handler broke down. -/
def breaks (o : List (Out Sig)) : Nat := (o.filter Out.breaks).length

/-- The time in a request of a client, for those kinds that carry one. -/
def ttlOf : Kind → Msg → Option Int
  | .establishment, m => match decode clientEstablishmentRequest m with | .ok (some _, _, t) => some t | _ => none
  | .standard, m => match decode clientStandardDiscoverRequest m with | .ok (_, _, t, _, _) => some t | _ => none
  | .standardV2, m => match decode clientStandardDiscoverRequestV2 m with | .ok (_, _, t, _, _) => some t | _ => none
  | .standardOffer, m => match decode clientStandardDiscoverOfferRequest m with | .ok (_, _, t, _, _, _) => some t | _ => none
  | .dht, m => match decode clientDHTDiscoverRequest m with | .ok (_, _, t, _, _, _, _) => some t | _ => none
  | .dhtV2, m => match decode clientDHTDiscoverRequestV2 m with | .ok (_, _, t, _, _, _, _) => some t | _ => none
  | _, _ => none

/-- The client's request came too late. -/
def Late (E : Env Sig) (k : Kind) (m : Msg) : Prop := ∃ t, ttlOf k m = some t ∧ E.now > t

/-- A client asks a gateway to ask others, with a voucher that is credited, but below the price of the request.  For the search the others have been found. -/
def Short (E : Env Sig) (c : Core Sig) : Kind → Msg → Prop
  | .dhtV2, m => ∃ id nonce t num inc ch v amount, decode clientDHTDiscoverRequestV2 m = .ok (some id, nonce, t, num, inc, ch, v) ∧
      (E.near id num).isSome ∧ Credits E c ch v amount ∧ amount < c.searchPrice * num
  | .dhtOffer, m => ∃ cid nonce dss ids ch v amount, decode clientDHTDiscoverOfferRequest m = .ok (cid, nonce, dss, ids, ch, v) ∧
      Credits E c ch v amount ∧ amount < ((dss.map List.length).sum : Int) * c.offerPrice
  | _, _ => False

/-- The payment manager refuses the voucher. -/
def Refused (E : Env Sig) (c : Core Sig) (channel voucher : List Char) : Prop :=
  (Payment.receive E.verifyVoucher c.payment (String.ofList channel) (E.readVoucher voucher) (E.chain (String.ofList channel))).2 = .error

/-- The error that a refused voucher gets: a status for a client, the message for invalid requests for a gateway. -/
def refusal : Kind → Option (Out Sig)
  | .dhtV2 | .dhtOffer => some (.status 400)
  | .peerDhtV2 | .peerDhtOffer => some .invalid
  | _ => none

end FcRetrieval.Gateway
