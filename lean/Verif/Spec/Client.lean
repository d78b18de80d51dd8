import Verif.Model.Client
import Verif.Spec.Codecs
import Verif.Spec.Offer
/-!
# Specification vocabulary for the client
-/

namespace FcRetrieval.Client
open FcRetrieval.Ids (Id)
open FcRetrieval.Crypto (KeyPair)
open FcRetrieval.Message (Msg)
open FcRetrieval.Offer (SubOffer)
open FcRetrieval.Register (Record)
open FcRetrieval.Wire (encode decode)
open FcRetrieval.Codecs

variable {Sig : Type}

/-- The record of a gateway is complete: no text is empty and both keys can be read. -/
def CompleteGateway (r : Record) : Prop :=
  r.nodeID ≠ [] ∧ r.address ≠ [] ∧ r.regionCode ≠ [] ∧ r.netGateway ≠ [] ∧ r.netProvider ≠ [] ∧ r.netClient ≠ [] ∧ r.netAdmin ≠ [] ∧
  (∃ k, Crypto.decodePublicKey r.rootSigningKey = .ok k) ∧ ∃ k, Crypto.decodePublicKey r.signingKey = .ok k

/-- The record of a provider is complete; it has no address for providers. -/
def CompleteProvider (r : Record) : Prop :=
  r.nodeID ≠ [] ∧ r.address ≠ [] ∧ r.regionCode ≠ [] ∧ r.netGateway ≠ [] ∧ r.netClient ≠ [] ∧ r.netAdmin ≠ [] ∧
  (∃ k, Crypto.decodePublicKey r.rootSigningKey = .ok k) ∧ ∃ k, Crypto.decodePublicKey r.signingKey = .ok k

/-- The message carries a signature valid under the signing key of the record. -/
def SignedBy (E : Env Sig) (r : Record) (m : Msg) : Prop :=
  ∃ k, Crypto.decodePublicKey r.signingKey = .ok k ∧ Crypto.verifyMessage E.P k m.signature (Message.toSign m) = some true

/-- The node of the record was sent the message `m` and answered `a`, signed with its registered key. -/
def Answered (E : Env Sig) (n : Nat) (r : Record) (m a : Msg) : Prop := E.exchange n r.netClient m = some a ∧ SignedBy E r a

/-- An establishment exchange: the gateway of the record was sent the challenge and answered with it and its own identifier. -/
def Established (E : Env Sig) (n : Nat) (r : Record) (challenge : Bytes) (m : Msg) : Prop :=
  ∃ client ttl a gw, encode clientEstablishmentRequest E.pr (some client, b64Encode challenge, ttl) = .ok m ∧ Answered E n r m a ∧
    decode clientEstablishmentResponse a = .ok (some gw, b64Encode challenge) ∧ r.nodeID = Ids.toStr gw

/-- What `GetGatewaysToUse` and `GetActiveGateways` show. -/
def Client.uses (c : Client Sig) : List Id := idsOf c.toUse
def Client.actives (c : Client Sig) : List Id := idsOf c.active

/-- The identifiers in the argument of a call are identifiers: 32 bytes. -/
def ProperIds (ids : List (Option Id)) : Prop := ∀ id, some id ∈ ids → id.length = 32

/-- The same for all the calls of a history. -/
def ProperOp : Op → Prop
  | .addToUse ids => ProperIds ids
  | .removeToUse ids => ProperIds ids
  | .addActive ids => ProperIds ids
  | .removeActive ids => ProperIds ids
  | _ => True

/-- The identifiers of the list which are not among those named. -/
def others (ids : List (Option Id)) (l : List Id) : List Id := l.filter (fun x => decide (some x ∉ ids))

/-- Some call of the history looked this gateway up, and its record was complete. -/
def WasValidated (hist : List (Env Sig × Op)) (id : Id) (r : Record) : Prop :=
  ∃ E ids, (E, Op.addToUse ids) ∈ hist ∧ some id ∈ ids ∧ E.gateway id = some r ∧ CompleteGateway r

/-- Some call of the history made an establishment exchange with this gateway. -/
def WasEstablished (hist : List (Env Sig × Op)) (id : Id) (r : Record) : Prop :=
  ∃ E ids n m, (E, Op.addActive ids) ∈ hist ∧ some id ∈ ids ∧ Established E n r (E.challenge id) m

/-- The record which the client has for an active gateway. -/
def ActiveRecord (c : Client Sig) (gw : Id) (r : Record) : Prop := mget c.active (Ids.toStr gw) = some r

/-- The offer is genuine: its provider is registered, the signature is valid under the registered key for the terms of the offer, and the
Merkle proof shows that its CID is one of those under the signed root. -/
def Genuine (E : Env Sig) (o : SubOffer) : Prop :=
  ∃ pid r k text, o.providerID = some pid ∧ E.provider pid = some r ∧ Crypto.decodePublicKey r.signingKey = .ok k ∧
    Offer.toSign (some pid) o.merkleRoot o.price o.expiry o.qos = .ok text ∧
    Crypto.verifyMessage E.P k o.signature text = some true ∧
    Merkle.verify E.H o.merkleProof o.subCID o.merkleRoot = .ok true

/-- The offer passes the checks of the client: it is genuine and the record of its provider is complete. -/
def Verified (E : Env Sig) (o : SubOffer) : Prop :=
  Genuine E o ∧ ∃ pid r, o.providerID = some pid ∧ E.provider pid = some r ∧ CompleteProvider r

/-- The offer has the parts which the verification dereferences: a provider, a CID, and an index for each step of the proof. -/
def Whole (o : SubOffer) : Prop :=
  o.providerID ≠ none ∧ o.subCID ≠ none ∧ (o.merkleProof.path.getD []).length ≤ (o.merkleProof.index.getD []).length

/-- No registered record is without keys. -/
def HaveKeys (look : Id → Option Record) : Prop := ∀ id r, look id = some r → r.rootSigningKey ≠ [] ∧ r.signingKey ≠ []

/-- The payments among what is seen. -/
def payments : List (Out Sig) → List (Payment.Addr × Int)
  | [] => []
  | .paid r a _ :: os => (r, a) :: payments os
  | .asked _ _ :: os => payments os

/-- The messages among what is seen. -/
def asked : List (Out Sig) → List (List Char × Msg)
  | [] => []
  | .asked a m :: os => (a, m) :: asked os
  | .paid _ _ _ :: os => asked os

end FcRetrieval.Client
