import Verif.Model.GatewayConc
import Verif.Spec.GatewayPromise
/-!
# Specification vocabulary for requests served at the same time
-/

namespace FcRetrieval.Gateway.Conc
open FcRetrieval.Message (Msg)
open FcRetrieval.Payment (Addr Voucher)
open FcRetrieval.GatewayLife (carries)

variable {Sig : Type}

/-- The request with this number carries this voucher on this channel, and has been answered with something that discloses
an offer, a digest, or the answer of another gateway. -/
def Served (E : Env Sig) (reqs : List (Env Sig × Paid × Msg)) (s : Sys Sig) (i : Nat) (p : Paid) (channel : List Char) (w : Voucher Sig) : Prop :=
  ∃ E' m t outs x, reqs[i]? = some (E', p, m) ∧ carries p.kind m = some (channel, t) ∧ E.readVoucher t = some w ∧
    s.threads[i]? = some (.done outs) ∧ Out.message x ∈ outs ∧ Discloses x

/-- What has been paid on a lane of a channel. -/
def paidOn (c : Core Sig) (channel : Addr) (lane : Nat) : Int :=
  match c.payment.inbound channel with
  | some s => match s.lanes lane with | some l => l.redeemed | none => 0
  | none => 0

end FcRetrieval.Gateway.Conc
