import Verif.Spec.Client
import Verif.Spec.Provider
import Verif.Spec.ClientGateway
/-! What a client finds in an acknowledgement, and the provider that shows it. -/

namespace FcRetrieval.Client
open FcRetrieval.Ids (Id)
open FcRetrieval.Message (Msg)
open FcRetrieval.Register (Record)
open FcRetrieval.Wire (encode decode)
open FcRetrieval.Codecs

variable {Sig : Type}

/-- The request is a publish request, signed by the provider of the record `r`, with an offer for the CID. -/
def PublishedBy (E : Env Sig) (r : Record) (cid : Id) (request : Msg) : Prop :=
  SignedBy E r request ∧ ∃ pid nonce offers, decode (providerPublishDHTOfferRequest E.H) request = .ok (pid, nonce, offers) ∧ ∃ o ∈ offers, o.cids = [cid]

/-- The acknowledgement is signed by the registered gateway, and holds its signature over the body of the request. -/
def AcknowledgedBy (E : Env Sig) (gw : Id) (request ack : Msg) : Prop :=
  ∃ g k nonce sig, E.gateway gw = some g ∧ CompleteGateway g ∧ Crypto.decodePublicKey g.signingKey = .ok k ∧ SignedBy E g ack ∧
    decode providerPublishDHTOfferResponse ack = .ok (nonce, sig) ∧ Crypto.verifyMessage E.P k sig (request.body.getD []) = some true

/-- The provider was asked for the acknowledgement and answered. -/
def ShownBy (E : Env Sig) (r : Record) (cid gw : Id) (found : Bool) (request ack : Msg) : Prop :=
  ∃ m a cid' gw', encode clientDHTOfferAckRequest E.pr (some cid, some gw) = .ok m ∧ Answered E 0 r m a ∧
    decode clientDHTOfferAckResponse a = .ok (cid', gw', found, some request, some ack)

/-- What a server sends back: its first message, if it sends one. -/
def providerReply (outs : List Provider.Out) : Option Msg :=
  match outs with
  | .message m :: _ => some m
  | _ => none

/-- The provider `p` is behind the record `r`: an acknowledgement request sent to the network address is served by `p`. -/
structure BehindProvider (E : Env Sig) (r : Record) (G : Provider.Env) (p : Provider.Core) : Prop where
  served : ∀ m, m.type = 106 → E.exchange 0 r.netClient m = providerReply (Provider.serve G p .offerAck m).2
  prims : G.P = E.P
  correct : Crypto.Correct E.P
  protocol : ProtocolOk G.pr
  signs : Provider.CanSign G p
  private_ : ∀ k v, p.key = some (k, v) → Crypto.PrivateKey k
  public_ : ∃ k, Crypto.decodePublicKey r.signingKey = .ok k ∧ k.alg = Crypto.sigAlg ∧
    ∀ kp v, p.key = some (kp, v) → Crypto.publicPart E.P k = Crypto.publicPart E.P kp

end FcRetrieval.Client
