import Verif.Model.GatewayAdmin
import Verif.Spec.Gateway
/-!
# Model of the whole life of a gateway (`gateway/cmd/gateway`, `gateway/internal/core`)

`Model/GatewayAdmin` has the requests of the admin and `Model/Gateway` those of everybody else, for a gateway that has been set up.
Here they come in any order, from the start of the process.  One request at a time, run to its end.

A panic in a handler for clients is recovered by `net/http`, one in a handler for gateways or providers ends the process; a history
simply goes on, so that what holds for every history holds for those in which no panic ends it.
-/

namespace FcRetrieval.GatewayLife
open FcRetrieval.Message (Msg)
open FcRetrieval.GatewayAdmin (Env Node)

variable {Sig : Type}

/-- gateway/cmd/gateway/main.go:64-106: the admin's requests, and all others. -/
inductive Request where
  | admin (kind : GatewayAdmin.Kind)
  | other (kind : Gateway.Kind)
  deriving DecidableEq

/-- What is seen from outside. -/
inductive Event (Sig : Type) where
  | admin (o : GatewayAdmin.Out)
  | other (o : Gateway.Out Sig)
  /-- The request is refused, or its handler panics, because the gateway has no key, no identifier or no payment manager yet; no answer. -/
  | unready

/-- The handlers that call `PaymentMgr.Receive` (gateway/internal/api, the six uses of it), a method of a pointer that is nil until the admin
sets a wallet. -/
def pays : Gateway.Kind → Bool
  | .standardV2 | .standardOffer | .dhtV2 | .dhtOffer | .peerDhtV2 | .peerDhtOffer => true
  | _ => false

/-- The handlers of the requests that do not come from the admin.  Those that do not pay do not use the payment manager.  Before the key is
set, `GatewayAdmin.freshPeerDht` and its neighbours are three of them; the others do nothing but refuse or panic, which is not modelled further. -/
def serveOther (E : Env Sig) (n : Node Sig) (k : Gateway.Kind) (m : Msg) : Node Sig × List (Event Sig) :=
  match n.id, n.key with
  | some id, some (key, v) =>
    if pays k && n.payment.isNone then (n, [.unready])
    else
      let r := Gateway.serve E.toEnv ⟨id, key, v, n.searchPrice, n.offerPrice, n.topupAmount, n.db, n.payment.getD (Payment.newMgr "")⟩ k m
      ({ n with db := r.1.db, offerPrice := r.1.offerPrice, payment := n.payment.map (fun _ => r.1.payment) }, r.2.map .other)
  | _, _ =>
    match k with
    | .peerDht => let r := GatewayAdmin.freshPeerDht E n m; (r.1, r.2.map .other)
    | .publishDht => let r := GatewayAdmin.freshPublishDht E n m; (r.1, r.2.map .other)
    | .publishGroup => let r := GatewayAdmin.freshPublishGroup E n m; (r.1, r.2.map .other)
    | _ => (n, [.unready])

/-- One request. -/
def step (E : Env Sig) (n : Node Sig) : Request → Msg → Node Sig × List (Event Sig)
  | .admin k, m => let r := GatewayAdmin.serve E n k m; (r.1, r.2.map .admin)
  | .other k, m => serveOther E n k m

/-- Requests one after the other, each in its own circumstances. -/
def live (n : Node Sig) : List (Env Sig × Request × Msg) → Node Sig
  | [] => n
  | (E, r, m) :: h => live (step E n r m).1 h

end FcRetrieval.GatewayLife
