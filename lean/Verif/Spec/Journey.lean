import Verif.Spec.Listing
import Verif.Spec.GatewayStore
import Verif.Spec.ClientGateway
/-!
# Specification vocabulary for the way of an offer from the admin of a provider to a client
-/

namespace FcRetrieval.Journey
open FcRetrieval.Ids (Id)
open FcRetrieval.Crypto (Prims)
open FcRetrieval.Merkle (Hash)
open FcRetrieval.Message (Msg)
open FcRetrieval.Offer (SubOffer)
open FcRetrieval.Register (Record)
open FcRetrieval.Codecs (ProtocolOk)

variable {Sig S : Type}

/-- A register has, under the identifier of the provider, the public part of its key. -/
def Knows (P : Prims) (look : Id → Option Record) (pc : Provider.Core) : Prop :=
  ∃ pid rec pub k v, pc.id = some pid ∧ pc.key = some (k, v) ∧ look pid = some rec ∧ Crypto.decodePublicKey rec.signingKey = .ok pub ∧
    Listing.Matches P pub k

/-- The gateway, when it gets a request of the provider: it runs the same code, its database works, it can sign, and it finds the provider in its register. -/
structure Ready (G : Gateway.Env S) (g : Gateway.Core S) (E : Provider.Env) (pc : Provider.Core) : Prop where
  prims : G.P = E.P
  hash : G.H = E.H
  correct : Crypto.Correct G.P
  protocol : ProtocolOk G.pr
  works : Gateway.DbWorks G
  signs : Gateway.CanSign G g
  proper : g.id.length = 32
  knows : Knows G.P G.provider pc

/-- The life of a gateway: it began with an empty store and served these requests, with the hash functions `H` and `H512`; digests do not
collide, and no list is longer than 2^63. -/
structure Lived (H H512 : Hash) (g0 : Gateway.Core S) (hist : List (Gateway.Env S × Gateway.Kind × Msg)) : Prop where
  fresh : g0.db = SqlOffer.newDB
  sound : Gateway.Sound H H512 hist
  sizes : ∀ e ∈ hist, ∀ o, Gateway.Vouched e.1 e.2.2 o → o.cids.length < 2 ^ 63

/-- The client uses the gateway: it is among the active gateways of the client, and its clock is not behind 1970 or ahead of the time to live
of the request. -/
structure Uses (C : Client.Env Sig) (c : Client.Client Sig) (gw : Id) (G : Gateway.Env S) (g : Gateway.Core S) : Prop where
  active : ∃ r, Client.ActiveRecord c gw r ∧ Client.Behind C r 0 G g
  protocol : ProtocolOk C.pr
  nonce : inI64 (C.nonce 0)
  ttl : inI64 (C.now + c.settings.ttl)
  inTime : G.now ≤ C.now + c.settings.ttl
  clock : 0 ≤ G.now - G.off
  order : ∀ l, (G.order l).Perm l
  keys : Client.HaveKeys C.provider

/-- An offer of this provider for this CID on these terms. -/
def OnTerms (pid : Option Id) (cid : Id) (price : Nat) (expiry : Int) (qos : Nat) (s : SubOffer) : Prop :=
  s.providerID = pid ∧ s.subCID = some cid ∧ s.price = price ∧ s.expiry = expiry ∧ s.qos = qos

/-- Among the requests that the gateway served, none is a valid request of somebody else with an offer in the name of the provider `pid`, and
the register of the gateway always had for the provider the key that the register of the client has. -/
structure Unforged (C : Client.Env Sig) (pid : Option Id) (hist : List (Gateway.Env S × Gateway.Kind × Msg)) : Prop where
  prims : ∀ e ∈ hist, e.1.P = C.P
  alone : ∀ e ∈ hist, ∀ o q k, Gateway.Publishes e.1 e.2.2 q o → Gateway.Authentic e.1 e.1.provider q e.2.2 k → Gateway.Signed e.1 k o →
    o.providerID = pid → q = pid
  sameKey : ∀ e ∈ hist, ∀ p r, pid = some p → e.1.provider p = some r → ∃ r', C.provider p = some r' ∧ r'.signingKey = r.signingKey

end FcRetrieval.Journey
