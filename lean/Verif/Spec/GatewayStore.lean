import Verif.Spec.Gateway
import Verif.Spec.OfferMgr
/-!
# Specification vocabulary for the life of a gateway and its store
-/

namespace FcRetrieval.Gateway
open FcRetrieval.Merkle (Hash)
open FcRetrieval.Message (Msg)
open FcRetrieval.Offer (CidOffer)

variable {Sig : Type}

/-- The environments of a history differ in everything but the hash functions; their databases work, and the digests of the offers
published in it do not collide. -/
def Sound (H H512 : Hash) (hist : List (Env Sig × Kind × Msg)) : Prop :=
  (∀ e ∈ hist, e.1.H = H ∧ e.1.H512 = H512 ∧ DbWorks e.1) ∧
  ∀ l : List CidOffer, (∀ o ∈ l, ∃ e ∈ hist, Vouched e.1 e.2.2 o) → OfferMgr.NoCollision H512 l

end FcRetrieval.Gateway
