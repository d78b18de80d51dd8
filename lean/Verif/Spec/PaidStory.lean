import Verif.Spec.PaidJourney
/-!
# Specification vocabulary for one search after the other, each paid for (C172)
-/

namespace FcRetrieval.Journey
open FcRetrieval.Ids (Id)
open FcRetrieval.Merkle (Hash)
open FcRetrieval.Message (Msg)
open FcRetrieval.Register (Record)
open FcRetrieval.Codecs (ProtocolOk)
open FcRetrieval.Payment (Addr Mgr Chan)

variable {Sig : Type}

/-- What a gateway has served. -/
abbrev Hist (Sig : Type) := List (Gateway.Env Sig × Gateway.Kind × Msg)

/-- One search: what the gateway serves for others since the last one, the circumstances of the client and of the gateway, what is searched for and how many offers are
wanted at most, what the gateway serves for others between the two messages of the client, and its circumstances at the second. -/
structure Visit (Sig : Type) where
  before : Hist Sig
  C : Client.Env Sig
  G : Gateway.Env Sig
  cid : Id
  max : Int
  mid : Hist Sig
  G2 : Gateway.Env Sig

/-- What the client is told. -/
def Visit.result (gw : Id) (c : Client.Client Sig) (v : Visit Sig) : Res (List Offer.SubOffer) := (Client.findStandardV2 v.C c v.cid gw v.max).2.2

/-- The messages that the client sends. -/
def Visit.sent (gw : Id) (c : Client.Client Sig) (v : Visit Sig) : List (List Char × Msg) := Client.asked (Client.findStandardV2 v.C c v.cid gw v.max).2.1

/-- What the client pays, and to whom. -/
def Visit.paid (gw : Id) (c : Client.Client Sig) (v : Visit Sig) : List (Addr × Int) := Client.payments (Client.findStandardV2 v.C c v.cid gw v.max).2.1

/-- The client afterwards. -/
def Visit.after (gw : Id) (c : Client.Client Sig) (v : Visit Sig) : Client.Client Sig := (Client.findStandardV2 v.C c v.cid gw v.max).1

/-- What the gateway serves from the first message of the client to the last: these messages, and between two the requests of others. -/
def Visit.served (gw : Id) (c : Client.Client Sig) (v : Visit Sig) : Hist Sig :=
  match v.sent gw c with
  | [(_, m1), (_, m2)] => (v.G, .standardV2, m1) :: v.mid ++ [(v.G2, .standardOffer, m2)]
  | [(_, m1)] => [(v.G, .standardV2, m1)]
  | _ => []

/-- `Trades` without the books: the gateway is there, reads the vouchers and sees the channel, and does not ask for more than the client is set to pay. -/
structure Setting (H H512 : Hash) (g0 : Gateway.Core Sig) (hist : Hist Sig) (G : Gateway.Env Sig) (C : Client.Env Sig) (c : Client.Client Sig) (gw : Id) (r : Record)
    (payer ch : Addr) (balance : Int) : Prop where
  lived : Lived H H512 g0 hist
  active : Client.ActiveRecord c gw r
  behind : Client.Behind C r 0 G (Gateway.serveAll g0 hist)
  hash : G.H = H
  protocol : ProtocolOk C.pr
  nonce : inI64 (C.nonce 0)
  ttl : inI64 (C.now + c.settings.ttl)
  inTime : G.now ≤ C.now + c.settings.ttl
  clock : 0 ≤ G.now - G.off
  order : ∀ l, (G.order l).Perm l
  signs : ∀ b, (C.signVoucher b).isSome
  settles : Settles C G payer (Gateway.serveAll g0 hist).payment.address ch balance
  price : 0 < c.settings.searchPrice ∧ (Gateway.serveAll g0 hist).searchPrice ≤ c.settings.searchPrice

/-- The circumstances of a search of the client `c`, at a gateway that had served `hist` when the search before ended.  Nothing is said of the books. -/
structure Visit.Fits (H H512 : Hash) (g0 : Gateway.Core Sig) (gw : Id) (r : Record) (payer ch : Addr) (balance : Int) (c : Client.Client Sig) (hist : Hist Sig)
    (v : Visit Sig) : Prop where
  alone : ∀ e ∈ v.before, ∀ t, GatewayLife.carries e.2.1 e.2.2 ≠ some (ch.toList, t)
  setting : Setting H H512 g0 (hist ++ v.before) v.G v.C c gw r payer ch balance
  content : v.cid.length = 32
  max : 1 ≤ v.max
  continues : ∀ m1, (v.sent gw c).head? = some (r.netClient, m1) → Continues H H512 g0 (hist ++ v.before) v.G m1 v.mid v.G2 v.C c r payer ⟨ch, balance, 0, fun _ => none⟩
  last : ∀ os b, SqlOffer.getOffers H v.G.order v.G.off v.G.now (Gateway.serveAll g0 (hist ++ v.before)).db v.cid = .ok (os, b) →
    ∀ o ∈ os.take v.max.toNat, v.G2.now - v.G2.off < o.expiry

/-- One search after the other. -/
def Story (H H512 : Hash) (g0 : Gateway.Core Sig) (gw : Id) (r : Record) (payer ch : Addr) (balance : Int) : Client.Client Sig → Hist Sig → List (Visit Sig) → Prop
  | _, _, [] => True
  | c, hist, v :: vs => v.Fits H H512 g0 gw r payer ch balance c hist ∧
      Story H H512 g0 gw r payer ch balance (v.after gw c) (hist ++ v.before ++ v.served gw c) vs

/-- The client and what the gateway has served when all searches are over. -/
def ending (gw : Id) : Client.Client Sig → Hist Sig → List (Visit Sig) → Client.Client Sig × Hist Sig
  | c, hist, [] => (c, hist)
  | c, hist, v :: vs => ending gw (v.after gw c) (hist ++ v.before ++ v.served gw c) vs

/-- Each search with the client that makes it and what the gateway has served until then. -/
def moments (gw : Id) : Client.Client Sig → Hist Sig → List (Visit Sig) → List (Client.Client Sig × Hist Sig × Visit Sig)
  | _, _, [] => []
  | c, hist, v :: vs => (c, hist ++ v.before, v) :: moments gw (v.after gw c) (hist ++ v.before ++ v.served gw c) vs

/-- All that the client pays, search after search. -/
def spent (gw : Id) : Client.Client Sig → Hist Sig → List (Visit Sig) → Int
  | _, _, [] => 0
  | c, hist, v :: vs => ((v.paid gw c).map (·.2)).sum + spent gw (v.after gw c) (hist ++ v.before ++ v.served gw c) vs

/-- The most that the searches can cost. -/
def atMost (s : Client.Settings) (vs : List (Visit Sig)) : Int := (vs.map (fun v => s.searchPrice + v.max * s.offerPrice)).sum

open Classical in
/-- The search was answered and paid for as it should: of the first `max` offers that the gateway has for the CID the client gets those that verify, and it pays the gateway
once for the search and, if there is an offer, once for the digests. -/
def Visit.Right (H : Hash) (g0 : Gateway.Core Sig) (gw : Id) (r : Record) (c : Client.Client Sig) (hist : Hist Sig) (v : Visit Sig) : Prop :=
  ∃ os, SqlOffer.getOffers H v.G.order v.G.off v.G.now (Gateway.serveAll g0 hist).db v.cid = .ok (os, !os.isEmpty) ∧
    v.result gw c = .ok (((os.take v.max.toNat).map (fun o => Offer.subOffer H o v.cid)).filter (fun s => decide (Client.Verified v.C s))) ∧
    v.paid gw c = (String.ofList r.address, c.settings.searchPrice) ::
      (if os = [] then [] else [(String.ofList r.address, (os.take v.max.toNat).length * c.settings.offerPrice)])

end FcRetrieval.Journey
