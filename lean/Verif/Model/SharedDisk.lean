import Verif.Model.Restart
/-!
# Model of several gateways that run on one machine (`common/pkg/database/database.go`, `common/pkg/offermgr/offer_manager.go`)

The gateways are started in the same working directory, as are those of several containers that share the directory `logs`, and run at the same time.
Simplifications: an add of one gateway is not interleaved with one of another (within one gateway that is `Model/SqlConc`), and the database does not
fail.
-/

namespace FcRetrieval.SharedDisk
open FcRetrieval.Merkle (Hash)
open FcRetrieval.Offer (CidOffer)
open FcRetrieval.Restart (Boot Disk dbFile down)

/-- offer_manager.go:43-50 `AddGroupOffer`, `AddDHTOffer` (which do the same) of the gateway that was started so: the file is the one that
database.go:17-31 opened. -/
def add (H512 : Hash) (disk : Disk) (b : Boot) (o : CidOffer) : Res Disk := do
  let (db, _) ← SqlOffer.insertOffer H512 (fun _ => false) (disk (dbFile b)) o
  return down disk b db

/-- Adds one after the other, each at one of the gateways. -/
def adds (H512 : Hash) (disk : Disk) : List (Boot × CidOffer) → Res Disk
  | [] => .ok disk
  | (b, o) :: h => do
    let disk ← add H512 disk b o
    adds H512 disk h

/-- offer_manager.go:68-70 `GetOffers` of the gateway that was started so. -/
def find (H : Hash) (order : List SqlOffer.OfferRow → List SqlOffer.OfferRow) (off now : Int) (disk : Disk) (b : Boot) (c : Ids.Id) : Res (List CidOffer × Bool) :=
  SqlOffer.getOffers H order off now (disk (dbFile b)) c

/-- offer_manager.go:63-65 `GetDHTOffersWithinRange` of the gateway that was started so. -/
def findRange (H : Hash) (order : List SqlOffer.OfferRow → List SqlOffer.OfferRow) (off now : Int) (disk : Disk) (b : Boot) (cidMin cidMax : Ids.Id) (max : Int) : Res (List CidOffer × Bool) :=
  SqlOffer.getDhtRange H order off now (disk (dbFile b)) cidMin cidMax max

end FcRetrieval.SharedDisk
