import Verif.Model.Provider
import Verif.Spec.Offer
import Verif.Spec.Message
import Verif.Spec.Codecs
/-!
# Specification vocabulary for the handlers of the provider
-/

namespace FcRetrieval.Provider
open FcRetrieval.Ids (Id Proper)
open FcRetrieval.Crypto (KeyPair)
open FcRetrieval.Message (Msg)
open FcRetrieval.Offer (CidOffer)
open FcRetrieval.Wire (decode)
open FcRetrieval.Codecs

/-- The gateway is registered with this signing key. -/
def Registered (E : Env) (gid : Id) (k : KeyPair) : Prop :=
  ∃ r, E.gateway gid = some r ∧ Crypto.decodePublicKey r.signingKey = .ok k

/-- The gateway named in a request is registered, and the request carries a signature valid under the registered key. -/
def Authentic (E : Env) (gw : Option Id) (m : Msg) (k : KeyPair) : Prop :=
  ∃ gid, gw = some gid ∧ Registered E gid k ∧ Crypto.verifyMessage E.P k m.signature (Message.toSign m) = some true

/-- The provider has an identifier and a key that signs whatever it is asked to (C12 gives this for well-formed keys). -/
def CanSign (E : Env) (c : Core) : Prop :=
  ∃ id k v, c.id = some id ∧ Proper id ∧ c.key = some (k, v) ∧ ∀ b, (Crypto.signMessage E.P k v b).isSome

/-- `ack` is an acknowledgement of the publish request `req`: it holds a signature over the body of `req` which is valid under the
registered key of the gateway. -/
def Acknowledges (E : Env) (gid : Id) (req ack : Msg) : Prop :=
  ∃ k nonce sig, Registered E gid k ∧ decode providerPublishDHTOfferResponse ack = .ok (nonce, sig) ∧
    Crypto.verifyMessage E.P k sig (req.body.getD []) = some true

/-- The message carries a signature valid under the registered key of the gateway. -/
def SignedBy (E : Env) (gid : Id) (m : Msg) : Prop :=
  ∃ k, Registered E gid k ∧ Crypto.verifyMessage E.P k m.signature (Message.toSign m) = some true

/-- The gateway answers every list of publish requests with a signed list of acknowledgements, one for each, in order. -/
def AcknowledgesLists (E : Env) (gid : Id) : Prop :=
  ∀ r msgs, decode gatewayListDHTOfferResponse r = .ok msgs → ∃ reply acks, E.reply r = some reply ∧ SignedBy E gid reply ∧
    decode gatewayListDHTOfferAck reply = .ok acks ∧ acks.length = msgs.length ∧ ∀ p ∈ msgs.zip acks, Acknowledges E gid p.1 p.2

/-- The gateway answers every list of publish requests with another number of acknowledgements. -/
def Miscounts (E : Env) : Prop :=
  ∀ r msgs, decode gatewayListDHTOfferResponse r = .ok msgs → ∃ reply acks, E.reply r = some reply ∧
    decode gatewayListDHTOfferAck reply = .ok acks ∧ acks.length ≠ msgs.length

/-- Whoever reads the message finds a publish request with exactly these offers. -/
def Carries (E : Env) (m : Msg) (offers : List CidOffer) : Prop :=
  ∃ pid nonce, decode (providerPublishDHTOfferRequest E.H) m = .ok (pid, nonce, offers)

/-- The gateway acknowledged a publish request with an offer for the CID. -/
def Evidence (E : Env) (cid gid : Id) (req ack : Msg) : Prop :=
  Acknowledges E gid req ack ∧ ∃ offers, Carries E req offers ∧ ∃ o ∈ offers, o.cids = [cid]

/-- The circumstances of a request are those of a running provider: it always uses the same hash, Go visits every entry of a map
once, protocol numbers and messages read from the network are in the range of their types, and no list is longer than 2^63. -/
def Sane (H : Merkle.Hash) (e : Env × Kind × Msg) : Prop :=
  e.1.H = H ∧ (∀ dm, (e.1.order dm).Perm dm) ∧ (∀ l, (e.1.orderSent l).Perm l) ∧ ProtocolOk e.1.pr ∧
  (∀ n gid m r, e.1.exchange n gid m = some r → Message.InRange r) ∧
  ∀ cids price expiry qos, decode providerAdminPublishDHTOfferRequest e.2.2 = .ok (cids, price, expiry, qos) → inI64 cids.length

/-- The offers of which `gid` confirmed the publication, in order, with repetitions. -/
def confirmedBy (gid : Id) : List Out → List CidOffer
  | [] => []
  | .confirmed g offers :: o => (if g = gid then offers else []) ++ confirmedBy gid o
  | _ :: o => confirmedBy gid o

/-- The offers of which any gateway confirmed the publication. -/
def allConfirmed : List Out → List CidOffer
  | [] => []
  | .confirmed _ offers :: o => offers ++ allConfirmed o
  | _ :: o => allConfirmed o

/-- The offer that a provider makes for the terms in a request of its admin: its own identifier, and the Merkle root of the CIDs
(C14); signed with the key of the provider. -/
def Made (E : Env) (c : Core) (cids : List Id) (price : Nat) (expiry : Int) (qos : Nat) (o : CidOffer) : Prop :=
  ∃ k v, c.key = some (k, v) ∧ o.providerID = c.id ∧ o.cids = cids ∧ o.price = price ∧ o.expiry = expiry ∧ o.qos = qos ∧
    Merkle.rootHex E.H cids = some o.merkleRoot ∧
    ∃ p, c.id = some p ∧ Crypto.signMessage E.P k v (utf8Bytes (render (Offer.signJson p o.merkleRoot price expiry qos))) = some o.signature

/-- One offer for each CID, with the terms at its position. -/
def MadeAll (E : Env) (c : Core) : List Id → List Nat → List Int → List Nat → List CidOffer → Prop
  | [], [], [], [], [] => True
  | cid :: cids, price :: prices, expiry :: expiries, qos :: qoss, o :: os =>
    Made E c [cid] price expiry qos o ∧ MadeAll E c cids prices expiries qoss os
  | _, _, _, _, _ => False

end FcRetrieval.Provider
