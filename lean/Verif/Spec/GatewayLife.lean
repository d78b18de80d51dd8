import Verif.Model.GatewayLife
import Verif.Spec.GatewayStore
/-!
# Specification vocabulary for the whole life of a gateway
-/

namespace FcRetrieval.GatewayLife
open FcRetrieval.Ids (Id)
open FcRetrieval.Crypto (KeyPair)
open FcRetrieval.Merkle (Hash)
open FcRetrieval.Message (Msg)
open FcRetrieval.Offer (CidOffer)
open FcRetrieval.Wire (decode)
open FcRetrieval.Codecs
open FcRetrieval.GatewayAdmin (Env Node)

variable {Sig : Type}

/-- A registered provider, asked for its offers, answers with a list that verifies under its registered key; a publish request on that list
verifies under the same key, contains the offer, and the offer carries a signature valid under the same key. -/
def Listed (E : Gateway.Env Sig) (o : CidOffer) : Prop :=
  ∃ pid req resp rec k ms m pid', E.exchange pid req = some resp ∧ E.provider pid = some rec ∧ Crypto.decodePublicKey rec.signingKey = .ok k ∧
    Crypto.verifyMessage E.P k resp.signature (Message.toSign resp) = some true ∧ decode gatewayListDHTOfferResponse resp = .ok ms ∧ m ∈ ms ∧
    Crypto.verifyMessage E.P k m.signature (Message.toSign m) = some true ∧ Gateway.Publishes E m pid' o ∧ Gateway.Signed E k o

/-- The request brings the offer: in a publish request of a provider, or because the admin lets the gateway ask the providers for their lists. -/
def Brings (e : Env Sig × Request × Msg) (o : CidOffer) : Prop :=
  match e.2.1 with
  | .other _ => Gateway.Vouched e.1.toEnv e.2.2 o
  | .admin k => k = .listOffers ∧ Listed e.1.toEnv o

/-- As `Gateway.Sound`: the environments of a history differ in everything but the hash functions; their databases work, and the digests of
the offers brought in it do not collide. -/
def Sound (H H512 : Hash) (hist : List (Env Sig × Request × Msg)) : Prop :=
  (∀ e ∈ hist, e.1.H = H ∧ e.1.H512 = H512 ∧ Gateway.DbWorks e.1.toEnv) ∧
  ∀ l : List CidOffer, (∀ o ∈ l, ∃ e ∈ hist, Brings e o) → OfferMgr.NoCollision H512 l

end FcRetrieval.GatewayLife

namespace FcRetrieval.GatewayLife
open FcRetrieval.Ids (Id)
open FcRetrieval.Crypto (KeyPair KeyVersion)
open FcRetrieval.Message (Msg)
open FcRetrieval.Wire (decode)
open FcRetrieval.Codecs
open FcRetrieval.GatewayAdmin (Env Node)

variable {Sig : Type}

/-- The message is written to the requester, or sent to another node. -/
def Sends (x : Msg) (events : List (Event Sig)) : Prop :=
  .admin (.message x) ∈ events ∨ (∃ i, .admin (.asked i x) ∈ events) ∨ .other (.message x) ∈ events ∨ ∃ i, .other (.asked i x) ∈ events

/-- The identifier and the key which a request sets, if any. -/
def keySet : Request → Msg → Option (Option Id × KeyPair × KeyVersion)
  | .admin .initialise, m =>
    match decode gatewayAdminInitialiseKeyRequest m with
    | .ok (id, some k, some v) => some (id, k, v)
    | _ => none
  | .admin .initialiseV2, m =>
    match decode gatewayAdminInitialiseKeyRequestV2 m with
    | .ok (id, some k, some v, _) => some (id, k, v)
    | _ => none
  | _, _ => none

/-- What the admin set last. -/
def lastKey : List (Env Sig × Request × Msg) → Option (Option Id × KeyPair × KeyVersion)
  | [] => none
  | e :: h =>
    match lastKey h with
    | some x => some x
    | none => keySet e.2.1 e.2.2

/-- Whether a request gives the gateway a wallet, if it says anything about it: the payment manager can be made from it or not. -/
def walletSet (E : Env Sig) : Request → Msg → Option Bool
  | .admin .initialiseV2, m =>
    match decode gatewayAdminInitialiseKeyRequestV2 m with
    | .ok (_, some _, some _, wallet, api, token) => some (E.newPayments wallet api token).isSome
    | _ => none
  | _, _ => none

/-- Whether the gateway got a wallet when the admin gave it one last. -/
def hasWallet : List (Env Sig × Request × Msg) → Option Bool
  | [] => none
  | e :: h =>
    match hasWallet h with
    | some x => some x
    | none => walletSet e.1 e.2.1 e.2.2

end FcRetrieval.GatewayLife
