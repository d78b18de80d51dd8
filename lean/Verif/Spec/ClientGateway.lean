import Verif.Spec.Client
import Verif.Spec.Gateway
import Verif.Spec.Crypto
/-!
# A client and a gateway

What is needed to state that a client talks to a gateway which runs the code of `Model/Gateway`.
-/

namespace FcRetrieval.Client
open FcRetrieval.Ids (Id)
open FcRetrieval.Message (Msg)
open FcRetrieval.Register (Record)
open FcRetrieval.Wire (Codec)
open FcRetrieval.Codecs

/-- gateway/cmd/gateway/main.go:64-73: the handler for a type of message at the address for clients. -/
def clientKind (type : Int) : Option Gateway.Kind :=
  if type = (clientEstablishmentRequest).code then some .establishment
  else if type = (clientDHTDiscoverRequest).code then some .dht
  else if type = (clientDHTDiscoverOfferRequest).code then some .dhtOffer
  else if type = (clientDHTDiscoverRequestV2).code then some .dhtV2
  else if type = (clientStandardDiscoverOfferRequest).code then some .standardOffer
  else if type = (clientStandardDiscoverRequest).code then some .standard
  else if type = (clientStandardDiscoverRequestV2).code then some .standardV2
  else none

/-- The message which a handler wrote; nothing reaches the client if it wrote a status other than 200 before it, or no message. -/
def reply {S : Type} : List (Gateway.Out S) → Option Msg
  | .message m :: _ => some m
  | .asked _ _ :: os => reply os
  | .paid _ _ :: os => reply os
  | _ => none

/-- The gateway `g` is behind the record `r`: a message sent to the network address is served by `g`, the record has the identifier of `g`,
and its key is the public part of the key with which `g` signs. -/
structure Behind {Sig S : Type} (E : Env Sig) (r : Record) (n : Nat) (G : Gateway.Env S) (g : Gateway.Core S) : Prop where
  served : ∀ m, E.exchange n r.netClient m = (clientKind m.type).bind (fun k => reply (Gateway.serve G g k m).2)
  prims : G.P = E.P
  correct : Crypto.Correct E.P
  ident : r.nodeID = Ids.toStr g.id
  proper : g.id.length = 32
  private_ : Crypto.PrivateKey g.key
  signs : Gateway.CanSign G g
  public_ : ∃ k, Crypto.decodePublicKey r.signingKey = .ok k ∧ k.alg = Crypto.sigAlg ∧ Crypto.publicPart E.P k = Crypto.publicPart E.P g.key
  protocol : ProtocolOk G.pr

end FcRetrieval.Client
