import Verif.Spec.Journey
import Verif.Spec.GatewayPromise
/-!
# Specification vocabulary for a search that is paid for
-/

namespace FcRetrieval.Journey
open FcRetrieval.Ids (Id)
open FcRetrieval.Merkle (Hash)
open FcRetrieval.Message (Msg)
open FcRetrieval.Register (Record)
open FcRetrieval.Codecs (ProtocolOk)
open FcRetrieval.Payment (Addr Mgr Chan)

variable {Sig : Type}

/-- What a payee has on its books for a channel. -/
def books (q : Mgr Sig) (ch : Addr) : Chan Sig := (q.inbound ch).getD ⟨"", 0, 0, fun _ => none⟩

/-- The payer has the account `a` for the recipient, and the payee has the same on its books: the total paid, and for every lane the amount and
the number of the next voucher. -/
structure InStep (p q : Mgr Sig) (recipient : Addr) (a : Chan Sig) : Prop where
  account : p.outbound recipient = some a
  total : (books q a.addr).redeemed = a.redeemed
  funds : (books q a.addr).balance ≤ a.balance
  amounts : ∀ i, ((books q a.addr).lane i).redeemed = (a.lane i).redeemed
  nonces : ∀ i, ((books q a.addr).lane i).nonce = (a.lane i).nonce

/-- The gateway reads the vouchers that the client writes, takes the signatures of the client for those of `payer`, and sees on the blockchain the
channel `ch` from `payer` to `me` with this balance. -/
structure Settles (C : Client.Env Sig) (G : Gateway.Env Sig) (payer me ch : Addr) (balance : Int) : Prop where
  chain : G.chain ch = some ⟨balance, .key me, .key payer⟩
  reads : ∀ w, G.readVoucher (C.showVoucher w) = some w
  verifies : ∀ b s, C.signVoucher b = some s → G.verifyVoucher s payer b = true

/-- A client with the account `a` is about to search at a gateway, and to pay for it.  The gateway has served the requests `hist` before, and gets the
first message of the client in the circumstances `G`.  The books of both agree, and the gateway asks for no more than the client is set to pay. -/
structure Trades (H H512 : Hash) (g0 : Gateway.Core Sig) (hist : List (Gateway.Env Sig × Gateway.Kind × Msg)) (G : Gateway.Env Sig)
    (C : Client.Env Sig) (c : Client.Client Sig) (gw : Id) (r : Record) (payer : Addr) (p : Mgr Sig) (a : Chan Sig) : Prop where
  lived : Lived H H512 g0 hist
  active : Client.ActiveRecord c gw r
  behind : Client.Behind C r 0 G (Gateway.serveAll g0 hist)
  hash : G.H = H
  protocol : ProtocolOk C.pr
  nonce : inI64 (C.nonce 0)
  ttl : inI64 (C.now + c.settings.ttl)
  inTime : G.now ≤ C.now + c.settings.ttl
  clock : 0 ≤ G.now - G.off
  order : ∀ l, (G.order l).Perm l
  wallet : c.payment = some p
  signs : ∀ b, (C.signVoucher b).isSome
  inStep : InStep p (Gateway.serveAll g0 hist).payment (String.ofList r.address) a
  settles : Settles C G payer (Gateway.serveAll g0 hist).payment.address a.addr a.balance
  price : 0 < c.settings.searchPrice ∧ (Gateway.serveAll g0 hist).searchPrice ≤ c.settings.searchPrice

/-- After the first message `m1` the gateway serves the requests `mid`, none of which brings a voucher for the channel of the client, and gets the second
message of the client in the circumstances `G2`. -/
structure Continues (H H512 : Hash) (g0 : Gateway.Core Sig) (hist : List (Gateway.Env Sig × Gateway.Kind × Msg)) (G : Gateway.Env Sig) (m1 : Msg)
    (mid : List (Gateway.Env Sig × Gateway.Kind × Msg)) (G2 : Gateway.Env Sig) (C : Client.Env Sig) (c : Client.Client Sig) (r : Record)
    (payer : Addr) (a : Chan Sig) : Prop where
  lived : Lived H H512 g0 (hist ++ (G, .standardV2, m1) :: mid)
  behind : Client.Behind C r 2 G2 (Gateway.serveAll g0 (hist ++ (G, .standardV2, m1) :: mid))
  hash : G2.H = H
  keys : Client.HaveKeys C.provider
  nonce : inI64 (C.nonce 2)
  inTime : G2.now ≤ C.now + c.settings.ttl
  clock : 0 ≤ G2.now - G2.off
  order : ∀ l, (G2.order l).Perm l
  settles : Settles C G2 payer (Gateway.serveAll g0 hist).payment.address a.addr a.balance
  alone : ∀ e ∈ mid, ∀ v, GatewayLife.carries e.2.1 e.2.2 ≠ some (a.addr.toList, v)
  price : 0 < c.settings.offerPrice ∧ (Gateway.serveAll g0 (hist ++ (G, .standardV2, m1) :: mid)).offerPrice ≤ c.settings.offerPrice

end FcRetrieval.Journey
