import Verif.Spec.Gateway
/-!
# Requests for paid services that a gateway serves at the same time

Each request runs in its own goroutine: go-json-rest serves HTTP requests so, and common/pkg/fcrp2pserver/server.go:110
starts one for every connection.  `Model/Gateway.lean` runs a handler to its end; here it is a program of steps, and the steps of many
handlers are interleaved in any order.

The steps are the places where a handler meets what others share: the offer store, the payment manager, the prices, and
the payments to other gateways.  `Receive` is one step if it finds the channel, because it keeps both locks to the end
(payment_manager.go:309, 325-327, 402); if it does not find it there is a second step, which does not look again (lines 311-323).
A search, a lookup by digest and the loop over other gateways are not one step in the code: here a schedule says what comes of
them, anything at all, or lets them run in one step.  Identifier and key of the gateway do not change.
-/

namespace FcRetrieval.Gateway.Conc
open FcRetrieval.Ids (Id)
open FcRetrieval.Message (Msg)
open FcRetrieval.Offer (CidOffer SubOffer)
open FcRetrieval.Payment (Addr Voucher ChainView RecvOut)
open FcRetrieval.Wire (encode decode)
open FcRetrieval.Codecs

variable {Sig : Type}

/-- What a handler has yet to do. -/
inductive Prog (Sig : Type) where
  /-- Nothing; this is what it did that can be seen. -/
  | done (outs : List (Out Sig))
  /-- `OffersMgr.GetOffers`. -/
  | find (cid : Id) (k : Res (List CidOffer × Bool) → Prog Sig)
  /-- The loop that looks up offers by their digests. -/
  | lookup (cid : Option Id) (ds : List (List Char)) (k : Res (List SubOffer) → Prog Sig)
  /-- `PaymentMgr.Receive`. -/
  | receive (channel voucher : List Char) (k : RecvOut → Prog Sig)
  /-- `PaymentMgr.Receive` after it has not found the channel. -/
  | create (channel voucher : List Char) (w : Voucher Sig) (cv : ChainView) (k : RecvOut → Prog Sig)
  /-- Reads the prices of a search and of an offer. -/
  | prices (k : Int → Int → Prog Sig)
  /-- Multiplies the price of an offer. -/
  | reprice (n : Nat) (k : Prog Sig)
  /-- The loop that pays and asks other gateways. -/
  | peers (run : Core Sig → Core Sig × List (Out Sig) × Option Contacts) (k : List (Out Sig) → Option Contacts → Prog Sig)

/-! ## The handlers, line by line as in `Model/Gateway.lean` -/

/-- clientapi/standard_discover_handler_v2.go:31-97. -/
def standardV2 (E : Env Sig) (g : Core Sig) (m : Msg) : Prog Sig :=
  match decode clientStandardDiscoverRequestV2 m with
  | .panic => .done [.panic]
  | .err => .done [.status 400]
  | .ok (cid, nonce, ttl, channel, voucher) =>
    if E.now > ttl then .done []
    else
      match cid with
      | none => .done [.panic]
      | some id =>
        .find id fun
          | .ok (offers, found) =>
            .receive channel voucher fun
              | .panic => .done [.panic]
              | .error => .done (respond E g clientStandardDiscoverResponseV2 (.status 400) (.status 500) (some id, nonce, found, [], [], true, channel))
              | .credited amount => .prices fun searchPrice _ =>
                if amount ≥ searchPrice then
                  match digests E offers with
                  | .ok ds => .done (respond E g clientStandardDiscoverResponseV2 (.status 400) (.status 500)
                      (some id, nonce, found, ds, offers.map (fun _ => false), false, []))
                  | _ => .done [.panic]
                else .done (respond E g clientStandardDiscoverResponseV2 (.status 400) (.status 500) (some id, nonce, found, [], [], true, channel))
          | _ => .done [.panic]

/-- clientapi/standard_discover_offer_handler.go:32-107. -/
def standardOffer (E : Env Sig) (g : Core Sig) (m : Msg) : Prog Sig :=
  match decode clientStandardDiscoverOfferRequest m with
  | .panic => .done [.panic]
  | .err => .done [.status 400]
  | .ok (cid, nonce, ttl, ds, channel, voucher) =>
    if E.now > ttl then .done []
    else
      .receive channel voucher fun
        | .panic => .done [.panic]
        | .error => .done (respond E g clientStandardDiscoverOfferResponse (.status 400) (.status 500) (cid, nonce, false, [], [], true, channel))
        | .credited amount => .prices fun _ offerPrice =>
          if amount ≥ offerPrice * ds.length then
            .lookup cid ds fun
              | .ok os => .done (respond E g clientStandardDiscoverOfferResponse (.status 400) (.status 500)
                  (cid, nonce, !ds.isEmpty, os, ds.map (fun _ => true), false, []))
              | _ => .done [.panic]
          else .done (respond E g clientStandardDiscoverOfferResponse (.status 400) (.status 500) (cid, nonce, false, [], [], true, channel))

/-- clientapi/dht_discover_handler_v2.go:35-137. -/
def dhtV2 (E : Env Sig) (g : Core Sig) (m : Msg) : Prog Sig :=
  match decode clientDHTDiscoverRequestV2 m with
  | .panic => .done [.panic]
  | .err => .done [.status 400]
  | .ok (cid, nonce, ttl, num, _, channel, voucher) =>
    if E.now > ttl then .done []
    else
      match cid with
      | none => .done [.panic]
      | some id =>
        match E.near id num with
        | none => .done [.status 400]
        | some rs =>
          .receive channel voucher fun
            | .panic => .done [.panic]
            | .error => .done [.status 400]
            | .credited amount => .prices fun searchPrice _ =>
              .peers (fun c => dhtV2Loop E id c rs ⟨[], [], []⟩) fun out r =>
                match r with
                | none => .done ((if amount < searchPrice * num then [.status 500] else []) ++ out)
                | some k => .done ((if amount < searchPrice * num then [.status 500] else []) ++ out ++
                    respond E g clientDHTDiscoverResponseV2 (.status 500) (.status 500) (k.contacted, k.responses, k.missed, nonce, false, []))

/-- clientapi/dht_discover_offer_handler.go:31-123. -/
def dhtOffer (E : Env Sig) (g : Core Sig) (m : Msg) : Prog Sig :=
  match decode clientDHTDiscoverOfferRequest m with
  | .panic => .done [.panic]
  | .err => .done [.status 400]
  | .ok (cid, nonce, dss, ids, channel, voucher) =>
    .receive channel voucher fun
      | .panic => .done [.panic]
      | .error => .done [.status 400]
      | .credited amount => .prices fun _ offerPrice =>
        .peers (fun c => dhtOfferLoop E cid nonce c ids dss ⟨[], [], []⟩) fun out r =>
          match r with
          | none => .done ((if amount < ((dss.map List.length).sum : Int) * offerPrice then [.status 500] else []) ++ out)
          | some k => .done ((if amount < ((dss.map List.length).sum : Int) * offerPrice then [.status 500] else []) ++ out ++
              respond E g clientDHTDiscoverOfferResponse (.status 500) (.status 500) (cid, nonce, k.contacted, k.responses, false, []))

/-- gatewayapi/dht_discover_handler_v2.go:29-103. -/
def peerDhtV2 (E : Env Sig) (g : Core Sig) (m : Msg) : Prog Sig :=
  match decode gatewayDHTDiscoverRequestV2 m with
  | .panic => .done [.panic]
  | .err => .done [.invalid]
  | .ok (gw, cid, nonce, ttl, channel, voucher) =>
    match senderKey E E.gateway gw m with
    | .panic => .done [.panic]
    | .err => .done [.invalid]
    | .ok _ =>
      if E.now > ttl then .done [.invalid]
      else
        .receive channel voucher fun
          | .panic => .done [.panic]
          | .error => .done [.invalid]
          | .credited amount =>
            match cid with
            | none => .done [.panic]
            | some id =>
              .find id fun
                | .ok (offers, found) =>
                  match digests E offers with
                  | .ok ds => .prices fun searchPrice _ =>
                    if amount < searchPrice then
                      .done (respond E g gatewayDHTDiscoverResponseV2 .invalid .invalid (some id, nonce, found, ds, offers.map (fun _ => false), true, channel))
                    else
                      .done (respond E g gatewayDHTDiscoverResponseV2 .invalid .invalid (some id, nonce, found, ds, offers.map (fun _ => false), false, []))
                  | _ => .done [.panic]
                | _ => .done [.panic]

/-- gatewayapi/dht_discover_offer_handler.go:29-106: line 65 multiplies the configured price itself, and line 85 compares with that
number as it is by then. -/
def peerDhtOffer (E : Env Sig) (g : Core Sig) (m : Msg) : Prog Sig :=
  match decode gatewayDHTDiscoverOfferRequest m with
  | .panic => .done [.panic]
  | .err => .done [.invalid]
  | .ok (cid, nonce, ds, channel, voucher) =>
    .receive channel voucher fun
      | .panic => .done [.panic]
      | .error => .done [.invalid]
      | .credited amount => .reprice ds.length <| .lookup cid ds fun
        | .ok os => .prices fun _ expected =>
          if amount < expected then
            .done (respond E g gatewayDHTDiscoverOfferResponse .invalid .invalid (cid, nonce, true, os, ds.map (fun _ => true), true, channel))
          else
            .done (respond E g gatewayDHTDiscoverOfferResponse .invalid .invalid (cid, nonce, true, os, ds.map (fun _ => true), false, []))
        | _ => .done [.panic]

/-- gateway/cmd/gateway/main.go:64-105: the handlers of the paid services. -/
inductive Paid where
  | standardV2
  | standardOffer
  | dhtV2
  | dhtOffer
  | peerDhtV2
  | peerDhtOffer
  deriving DecidableEq

/-- The kind of request, among all that a gateway serves. -/
def Paid.kind : Paid → Kind
  | .standardV2 => .standardV2
  | .standardOffer => .standardOffer
  | .dhtV2 => .dhtV2
  | .dhtOffer => .dhtOffer
  | .peerDhtV2 => .peerDhtV2
  | .peerDhtOffer => .peerDhtOffer

/-- The handler of each kind. -/
def handler (E : Env Sig) (g : Core Sig) : Paid → Msg → Prog Sig
  | .standardV2 => standardV2 E g
  | .standardOffer => standardOffer E g
  | .dhtV2 => dhtV2 E g
  | .dhtOffer => dhtOffer E g
  | .peerDhtV2 => peerDhtV2 E g
  | .peerDhtOffer => peerDhtOffer E g

/-! ## Steps -/

/-- A finished `Receive`: channel and voucher as text, and what came of it. -/
structure Entry where
  channel : List Char
  voucher : List Char
  out : RecvOut

/-- One step of a handler; the chain shows the given channels.  The third component is the `Receive` that this step finished. -/
def step (E : Env Sig) (chain : Addr → Option ChainView) (c : Core Sig) : Prog Sig → Core Sig × Prog Sig × Option Entry
  | .done outs => (c, .done outs, none)
  | .find cid k => (c, k (getOffers E c cid), none)
  | .lookup cid ds k => (c, k (offersByDigest E c cid ds), none)
  | .receive channel voucher k =>
    match E.readVoucher voucher, chain (String.ofList channel) with
    | some w, some cv =>
      match c.payment.inbound (String.ofList channel) with
      | none => (c, .create channel voucher w cv k, none)
      | some s =>
        let r := Payment.recvFound E.verifyVoucher c.payment (String.ofList channel) s w cv
        ({ c with payment := r.1 }, k r.2, some ⟨channel, voucher, r.2⟩)
    | _, _ => (c, k .error, some ⟨channel, voucher, .error⟩)
  | .create channel voucher w cv k =>
    let r := Payment.recvCreate E.verifyVoucher c.payment (String.ofList channel) w cv
    ({ c with payment := r.1 }, k r.2, some ⟨channel, voucher, r.2⟩)
  | .prices k => (c, k c.searchPrice c.offerPrice, none)
  | .reprice n k => ({ c with offerPrice := c.offerPrice * n }, k, none)
  | .peers run k =>
    let r := run c
    (r.1, k r.2.1 r.2.2, none)

/-- A handler that runs alone, for a number of steps. -/
def alone (E : Env Sig) : Nat → Core Sig → Prog Sig → Core Sig × Prog Sig
  | 0, c, p => (c, p)
  | n + 1, c, p => alone E n (step E E.chain c p).1 (step E E.chain c p).2.1

/-- A gateway that is serving requests, and the `Receive` calls that are finished, the latest first. -/
structure Sys (Sig : Type) where
  core : Core Sig
  threads : List (Prog Sig)
  log : List (Nat × Entry)

/-- What happens next. -/
inductive Label (Sig : Type) where
  /-- The request with this number takes a step, while the chain shows these channels. -/
  | go (i : Nat) (chain : Addr → Option ChainView)
  /-- The search of the request with this number gives this result. -/
  | found (i : Nat) (r : Res (List CidOffer × Bool))
  /-- So does its lookup by digests. -/
  | looked (i : Nat) (r : Res (List SubOffer))
  /-- So does its loop over other gateways. -/
  | asked (i : Nat) (outs : List (Out Sig)) (r : Option Contacts)
  /-- The offer store, the outbound channels and the price of offers become these. -/
  | other (db : SqlOffer.DB) (outbound : Addr → Option (Payment.Chan Sig)) (offerPrice : Int)

/-- One thing happens; what cannot happen changes nothing. -/
def sysStep (E : Env Sig) (s : Sys Sig) : Label Sig → Sys Sig
  | .go i chain =>
    match s.threads[i]? with
    | none => s
    | some p =>
      let r := step E chain s.core p
      ⟨r.1, s.threads.set i r.2.1, (r.2.2.map fun e => (i, e)).toList ++ s.log⟩
  | .found i r =>
    match s.threads[i]? with
    | some (.find _ k) => { s with threads := s.threads.set i (k r) }
    | _ => s
  | .looked i r =>
    match s.threads[i]? with
    | some (.lookup _ _ k) => { s with threads := s.threads.set i (k r) }
    | _ => s
  | .asked i outs r =>
    match s.threads[i]? with
    | some (.peers _ k) => { s with threads := s.threads.set i (k outs r) }
    | _ => s
  | .other db outbound offerPrice =>
    { s with core := { s.core with db := db, offerPrice := offerPrice, payment := { s.core.payment with outbound := outbound } } }

/-- A schedule. -/
def sysRun (E : Env Sig) (s : Sys Sig) (sched : List (Label Sig)) : Sys Sig := sched.foldl (sysStep E) s

/-- A gateway that is sent these requests, each in its own circumstances (clock, register, other nodes). -/
def serving (c : Core Sig) (reqs : List (Env Sig × Paid × Msg)) : Sys Sig := ⟨c, reqs.map fun r => handler r.1 c r.2.1 r.2.2, []⟩

end FcRetrieval.Gateway.Conc
