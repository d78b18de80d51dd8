import Verif.Model.SqlOffer
import Verif.Spec.OfferMgr
/-!
# Specification vocabulary for the database-backed offer manager
-/

namespace FcRetrieval.SqlOffer
open FcRetrieval.Merkle (Hash)
open FcRetrieval.Offer (CidOffer terms)

/-- Adding to the list of stored offers: an offer with the same terms is kept, and an offer with a price or quality of
service of 2^63 or more is refused. -/
def keep (acc : List CidOffer) (o : CidOffer) : List CidOffer :=
  if 2 ^ 63 ≤ o.price ∨ 2 ^ 63 ≤ o.qos then acc
  else if acc.any (fun o' => decide (terms o' = terms o)) then acc
  else acc ++ [o]

/-- The offers stored by a history of adds. -/
def stored (h : List CidOffer) : List CidOffer := h.foldl keep []

/-- How an add is made. -/
inductive Kind where
  | group
  | dht

/-- A history of adds on the model, with the answers; the database does not fail. -/
def run (H512 : Hash) (db : DB) : List (Kind × CidOffer) → Res (DB × List Bool)
  | [] => .ok (db, [])
  | (k, o) :: h => do
    let (db, ok) ← (match k with
      | .group => addGroup H512 (fun _ => false) db o
      | .dht => addDht H512 (fun _ => false) db o)
    let (db, oks) ← run H512 db h
    return (db, ok :: oks)

/-- The offers of a history can be stored: built by the constructor, and their digests do not collide. -/
def Sane (H H512 : Hash) (h : List CidOffer) : Prop := (∀ o ∈ h, Offer.Built H o) ∧ OfferMgr.NoCollision H512 h

end FcRetrieval.SqlOffer
