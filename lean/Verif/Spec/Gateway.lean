import Verif.Model.Gateway
/-!
# Specification vocabulary for the handlers of the gateway
-/

namespace FcRetrieval.Gateway
open FcRetrieval.Ids (Id)
open FcRetrieval.Message (Msg)
open FcRetrieval.Wire (decode)
open FcRetrieval.Codecs
open FcRetrieval.Payment (RecvOut)

variable {Sig : Type}

/-- The payment manager accepts the voucher and credits this amount (C35-C37 say what that means). -/
def Credits (E : Env Sig) (c : Core Sig) (channel voucher : List Char) (amount : Int) : Prop :=
  (Payment.receive E.verifyVoucher c.payment (String.ofList channel) (E.readVoucher voucher) (E.chain (String.ofList channel))).2 =
    .credited amount

/-- The requester paid at least this price. -/
def Pays (E : Env Sig) (c : Core Sig) (channel voucher : List Char) (price : Int) : Prop :=
  ∃ amount, Credits E c channel voucher amount ∧ price ≤ amount

/-- Whoever reads the message learns at least one offer, digest of an offer, or answer of another gateway. -/
def Discloses (m : Msg) : Prop :=
  (∃ a, decode clientStandardDiscoverResponse m = .ok a ∧ a.2.2.2.1 ≠ []) ∨
  (∃ a, decode clientStandardDiscoverResponseV2 m = .ok a ∧ a.2.2.2.1 ≠ []) ∨
  (∃ a, decode clientStandardDiscoverOfferResponse m = .ok a ∧ a.2.2.2.1 ≠ []) ∨
  (∃ a, decode clientDHTDiscoverResponse m = .ok a ∧ a.2.1 ≠ []) ∨
  (∃ a, decode clientDHTDiscoverResponseV2 m = .ok a ∧ a.2.1 ≠ []) ∨
  (∃ a, decode clientDHTDiscoverOfferResponse m = .ok a ∧ a.2.2.2.1 ≠ []) ∨
  (∃ a, decode gatewayDHTDiscoverResponse m = .ok a ∧ a.2.2.2.1 ≠ []) ∨
  (∃ a, decode gatewayDHTDiscoverResponseV2 m = .ok a ∧ a.2.2.2.1 ≠ []) ∨
  (∃ a, decode gatewayDHTDiscoverOfferResponse m = .ok a ∧ a.2.2.2.1 ≠ [])

/-- The sender named in a request is registered, and the request carries a signature valid under the registered key. -/
def Authentic (E : Env Sig) (look : Id → Option Register.Record) (id : Option Id) (m : Msg) (k : Crypto.KeyPair) : Prop :=
  ∃ i r, id = some i ∧ look i = some r ∧ Crypto.decodePublicKey r.signingKey = .ok k ∧
    Crypto.verifyMessage E.P k m.signature (Message.toSign m) = some true

/-- The gateway's key signs whatever it is asked to (C12 gives this for well-formed keys). -/
def CanSign (E : Env Sig) (c : Core Sig) : Prop := ∀ b, (Crypto.signMessage E.P c.key c.keyVersion b).isSome

/-- The kinds of requests that a gateway serves. -/
inductive Kind where
  | establishment
  | standard
  | standardV2
  | standardOffer
  | dht
  | dhtV2
  | dhtOffer
  | peerDht
  | peerDhtV2
  | peerDhtOffer
  | publishDht
  | publishGroup
  deriving DecidableEq

/-- gateway/cmd/gateway/main.go:64-105: the handler of each kind. -/
def serve (E : Env Sig) (c : Core Sig) : Kind → Msg → Core Sig × List (Out Sig)
  | .establishment => establishment E c
  | .standard => standard E c
  | .standardV2 => standardV2 E c
  | .standardOffer => standardOffer E c
  | .dht => dht E c
  | .dhtV2 => dhtV2 E c
  | .dhtOffer => dhtOffer E c
  | .peerDht => peerDht E c
  | .peerDhtV2 => peerDhtV2 E c
  | .peerDhtOffer => peerDhtOffer E c
  | .publishDht => publishDht E c
  | .publishGroup => publishGroup E c

/-- The life of a gateway: requests one after the other, each in its own circumstances. -/
def serveAll (c : Core Sig) : List (Env Sig × Kind × Msg) → Core Sig
  | [] => c
  | (E, k, m) :: h => serveAll (serve E c k m).1 h

/-- The vouchers that a gateway issued, with their recipients. -/
def spent : List (Out Sig) → List (Payment.Addr × Payment.Voucher Sig)
  | [] => []
  | .paid r v :: o => (r, v) :: spent o
  | _ :: o => spent o

/-- The vouchers that a payment manager issued, with their recipients. -/
def issued : List (Payment.PayEvent Sig) → List (Payment.Addr × Payment.Voucher Sig)
  | [] => []
  | .paid r _ _ _ v :: o => (r, v) :: issued o
  | _ :: o => issued o

/-- `r` is what the gateway `id` answered when asked, and it verifies under the registered key of that gateway. -/
def Relayed (E : Env Sig) (outs : List (Out Sig)) (id : Id) (r : Msg) : Prop :=
  ∃ req g k, Out.asked id req ∈ outs ∧ E.exchange id req = some r ∧ E.gateway id = some g ∧
    Crypto.decodePublicKey g.signingKey = .ok k ∧ Crypto.verifyMessage E.P k r.signature (Message.toSign r) = some true

/-- The gateways to ask are those contacted and those missed, and every contacted one has its own answer relayed. -/
def Collected (E : Env Sig) (outs : List (Out Sig)) (ids contacted : List Id) (responses : List Msg) (missed : List Id) : Prop :=
  (contacted ++ missed).Perm ids ∧ contacted.length = responses.length ∧
    ∀ p ∈ contacted.zip responses, Relayed E outs p.1 p.2

/-- The publish request `m` is that of the provider `pid` and contains the offer. -/
def Publishes (E : Env Sig) (m : Msg) (pid : Option Id) (o : Offer.CidOffer) : Prop :=
  ∃ nonce, (∃ offers, decode (providerPublishDHTOfferRequest E.H) m = .ok (pid, nonce, offers) ∧ o ∈ offers) ∨
    decode (providerPublishGroupOfferRequest E.H) m = .ok (pid, nonce, some o)

/-- The offer carries a signature over its terms, valid under the key. -/
def Signed (E : Env Sig) (k : Crypto.KeyPair) (o : Offer.CidOffer) : Prop :=
  ∃ p, o.providerID = some p ∧
    Crypto.verifyMessage E.P k o.signature (utf8Bytes (render (Offer.signJson p o.merkleRoot o.price o.expiry o.qos))) = some true

/-- The request is a publish request of a registered provider, verifies under the registered key of that provider, contains the
offer, and the offer carries a signature valid under the same key. -/
def Vouched (E : Env Sig) (m : Msg) (o : Offer.CidOffer) : Prop :=
  ∃ pid k, Publishes E m pid o ∧ Authentic E E.provider pid m k ∧ Signed E k o

/-- The offer is signed under the key, and the database can hold its numbers. -/
def Storable (E : Env Sig) (k : Crypto.KeyPair) (o : Offer.CidOffer) : Prop := Signed E k o ∧ o.price < 2 ^ 63 ∧ o.qos < 2 ^ 63

instance (E : Env Sig) (k : Crypto.KeyPair) (o : Offer.CidOffer) : Decidable (Signed E k o) :=
  match h : o.providerID with
  | none => .isFalse (by rintro ⟨p, h', -⟩; rw [h] at h'; cases h')
  | some p =>
    if hv : Crypto.verifyMessage E.P k o.signature (utf8Bytes (render (Offer.signJson p o.merkleRoot o.price o.expiry o.qos))) = some true then
      .isTrue ⟨p, h, hv⟩
    else .isFalse (by rintro ⟨p', h', hv'⟩; rw [h] at h'; cases h'; exact hv hv')

instance (E : Env Sig) (k : Crypto.KeyPair) (o : Offer.CidOffer) : Decidable (Storable E k o) := by
  unfold Storable
  infer_instance

/-- The database executes every statement. -/
def DbWorks (E : Env Sig) : Prop := ∀ o i, E.dbFails o i = false

end FcRetrieval.Gateway
