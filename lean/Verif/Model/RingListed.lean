import Verif.Model.RingShared
/-!
# Offers published and listed at the same time, any number of each (`common/pkg/dhtring/dhtring.go`, `common/pkg/fcroffermgr/offer_manager.go`)

The parts are those of `Model/RingShared`.  Simplification: of a listing, only its part on the ring (offer_manager.go:81): the offers are looked up in the
storage afterwards, CID by CID.
-/

namespace FcRetrieval.RingShared
open FcRetrieval.Ids (Id)
open FcRetrieval.Merkle (Hash)
open FcRetrieval.Ring (Ring Hex Fault)

/-- The range of one call of `GetDHTOffersWithinRange`. -/
structure Query where
  lo : Id
  hi : Id

/-- How far a call of `GetDHTOffersWithinRange` is (offer_manager.go:81): before, or behind one of the three parts of `GetWithinRange`. -/
inductive LStage where
  | begun
  | walking (l : Listing)
  | ending (l : Listing) (res : List Hex)
  | answered (res : List Hex)
  | refused

/-- The manager with the calls in progress. -/
structure Both where
  world : World
  look : Nat → LStage

/-- offer_manager.go:81: the next part of the `j`-th listing. -/
def lookTick (qs : List Query) (b : Both) (j : Nat) : Except Fault Both :=
  match qs[j]? with
  | none => .ok b
  | some q =>
    match b.look j with
    | .begun => do
      let (r, l?) ← listBegin b.world.mgr.ring (Ids.toStr q.lo) (Ids.toStr q.hi)
      return ⟨{ b.world with mgr := { b.world.mgr with ring := r } }, fun i => if i = j then (match l? with | none => .refused | some l => .walking l) else b.look i⟩
    | .walking l => do
      let res ← listWalk b.world.mgr.ring (Ids.toStr q.lo) (Ids.toStr q.hi) l (b.world.mgr.ring.cap + 1)
      return ⟨b.world, fun i => if i = j then .ending l res else b.look i⟩
    | .ending l res => do
      let r ← listEnd b.world.mgr.ring (Ids.toStr q.lo) (Ids.toStr q.hi) l
      return ⟨{ b.world with mgr := { b.world.mgr with ring := r } }, fun i => if i = j then .answered res else b.look i⟩
    | .answered _ => .ok b
    | .refused => .ok b

/-- The calls go on in the order of the schedule: whose turn it is, a publication's (`Sum.inl`) or a listing's (`Sum.inr`). -/
def playBoth (H512 : Hash) (calls : List Call) (qs : List Query) : Both → List (Nat ⊕ Nat) → Except Fault Both
  | b, [] => .ok b
  | b, .inl i :: sch => do
    let w ← tick H512 calls b.world i
    playBoth H512 calls qs ⟨w, b.look⟩ sch
  | b, .inr j :: sch => do
    let b ← lookTick qs b j
    playBoth H512 calls qs b sch

end FcRetrieval.RingShared
