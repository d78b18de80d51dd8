import Verif.Model.OfferConc
import Verif.Spec.OfferMgr
/-!
# Specification vocabulary for interleaved calls on the offer storage
-/

namespace FcRetrieval.OfferMgr.Conc
open FcRetrieval.Merkle (Hash)
open FcRetrieval.Offer (CidOffer InRange)

/-- At rest: every digest map holds offers under their own digests, and an offer held under one of its CIDs is held under
all of them.  A new storage is like this, and so is one after the calls of `C23_partial`. -/
structure Rest (H512 : Hash) (s : Shared) (acc : List CidOffer) : Prop where
  addr : ∀ k a, mget s.cidMap k = some a → a < s.heap.length
  nodup : ∀ a, (mkeys (s.dmap a)).Nodup
  good : ∀ a d o, mget (s.dmap a) d = some o → o ∈ acc ∧ digestOf H512 o = .ok d
  everywhere : ∀ a d o, mget (s.dmap a) d = some o → ∀ c ∈ o.cids,
    ∃ a', mget s.cidMap (Ids.toStr c) = some a' ∧ (mget (s.dmap a') d).isSome
  unlocked : s.unlocked = 0

/-- The offers being added. -/
def adding : List Call → List CidOffer
  | [] => []
  | .add o :: cs => o :: adding cs
  | _ :: cs => adding cs

/-- A CID that two of the calls add an offer of already has its entry. -/
def NoSharedNew (s : Shared) (calls : List Call) : Prop :=
  ∀ (i j : Nat) (o o' : CidOffer), calls[i]? = some (.add o) → calls[j]? = some (.add o') → i ≠ j →
    ∀ c ∈ o.cids, c ∈ o'.cids → Ids.toStr c ∈ mkeys s.cidMap

/-- The call has returned. -/
def Returned : Pc → Prop
  | .done _ => True
  | _ => False

end FcRetrieval.OfferMgr.Conc
