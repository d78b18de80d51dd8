import Verif.Spec.OfferMgr
/-!
# Contents offered so far
-/

namespace FcRetrieval.RingShared
open FcRetrieval.Ids (Id)
open FcRetrieval.OfferMgr (Clock Op)

/-- The contents for which a one-CID offer was given to `AddDHTOffer`. -/
def dhtCids (h : List (Clock × Op)) : List Id :=
  h.flatMap (fun e => match e.2 with
    | .addDht o => (match o.cids with | [c] => [c] | _ => [])
    | _ => [])

end FcRetrieval.RingShared
