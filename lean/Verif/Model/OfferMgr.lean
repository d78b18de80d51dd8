import Verif.Model.Maps
import Verif.Model.Offer
import Verif.Model.Ring
/-!
# Model of the in-memory offer manager (`common/pkg/fcroffermgr`), used by the provider

Calls made one at a time; interleavings of adds are in `Model/OfferConc`.  The maps hold pointers to offers: the type `R` of
references and what they point at, `deref`, are parameters, so that aliasing can be modelled (`R` is the type of offers
itself when nobody changes a stored offer).  The order in which Go iterates over a map is the parameter `order`.  The clock
is read once per call (the code reads it once per offer).
-/

namespace FcRetrieval.OfferMgr
open FcRetrieval.Ids (Id)
open FcRetrieval.Merkle (Hash)
open FcRetrieval.Offer (CidOffer)
open FcRetrieval.Ring (Fault Ring)

/-- The time: seconds since 1970 and nanoseconds. -/
structure Clock where
  sec : Int
  nsec : Nat
  deriving DecidableEq

/-- cidoffer.go:139-143 `HasExpired` at a given time. -/
def expired (o : CidOffer) (t : Clock) : Bool := Offer.hasExpired o.expiry t.sec t.nsec

/-- offer_storage.go:27-30 `digestOffer`. -/
abbrev DigestMap (R : Type) := List (Bytes × R)

/-- offer_storage.go:33-37 `offerStorage`. -/
abbrev Storage (R : Type) := List (List Char × DigestMap R)

variable {R : Type}

/-- `GetMessageDigest`, which panics on an offer without provider. -/
def digestOf (H512 : Hash) (o : CidOffer) : Except Fault Bytes :=
  match Offer.digest H512 o with
  | .ok d => .ok d
  | _ => .error .panic

/-- offer_storage.go:74-91, one turn of the loop: put the reference under one CID, making the entry if needed. -/
def addUnder (d : Bytes) (r : R) (st : Storage R) (cidStr : List Char) : Storage R :=
  match mget st cidStr with
  | none => mset st cidStr (mset [] d r)
  | some dm => mset st cidStr (mset dm d r)

/-- Is there an entry for the CID, and in it one for the digest? (offer_storage.go:57-65). -/
def holds (st : Storage R) (cidStr : List Char) (d : Bytes) : Bool :=
  match mget st cidStr with
  | none => false
  | some dm => (mget dm d).isSome

/-- offer_storage.go:48-94 `add`; the flag is false if an error is returned. -/
def add (H512 : Hash) (deref : R → CidOffer) (t : Clock) (st : Storage R) (r : R) : Except Fault (Storage R × Bool) :=
  match (deref r).cids with
  | [] => .ok (st, false)
  | c :: cs => do
    let d ← digestOf H512 (deref r)
    if holds st (Ids.toStr c) d then return (st, true)
    if expired (deref r) t then return (st, false)
    return ((Ids.mapToString (c :: cs)).foldl (addUnder d r) st, true)

/-- offer_storage.go:122-134, the inner loop: delete the digest under every CID of the offer. -/
def removeUnder (d : Bytes) : List (List Char) → Storage R → Except Fault (Storage R)
  | [], st => .ok st
  | cidStr :: rest, st =>
    match mget st cidStr with
    | none => .error .panic
    | some dm => removeUnder d rest (mset st cidStr (mdel dm d))

/-- offer_storage.go:120-135, the outer loop. -/
def removeAll (H512 : Hash) : List CidOffer → Storage R → Except Fault (Storage R)
  | [], st => .ok st
  | o :: os, st => do
    let d ← digestOf H512 o
    let st ← removeUnder d (Ids.mapToString o.cids) st
    removeAll H512 os st

/-- offer_storage.go:97-138 `get`. -/
def get (H512 : Hash) (deref : R → CidOffer) (order : DigestMap R → DigestMap R) (t : Clock) (st : Storage R) (c : Id) :
    Except Fault (Storage R × List CidOffer) :=
  match mget st (Ids.toStr c) with
  | none => .ok (st, [])
  | some dm => do
    let all := (order dm).map (fun e => deref e.2)
    let st ← removeAll H512 (all.filter (fun o => expired o t)) st
    return (st, all.filter (fun o => !expired o t))

/-- offer_manager.go:34-38 `FCROfferMgr`. -/
structure Mgr (R : Type) where
  dht : Storage R
  ring : Ring
  group : Storage R

/-- offer_manager.go:41-47 `NewFCROfferMgr`. -/
def newMgr : Mgr R := { dht := [], ring := Ring.createRing, group := [] }

/-- offer_manager.go:50-55 `AddGroupOffer`. -/
def addGroup (H512 : Hash) (deref : R → CidOffer) (t : Clock) (m : Mgr R) (r : R) : Except Fault (Mgr R × Bool) :=
  if (deref r).cids.length ≤ 1 then .ok (m, false)
  else do
    let (g, ok) ← add H512 deref t m.group r
    return ({ m with group := g }, ok)

/-- offer_manager.go:58-64 `AddDHTOffer`: the CID enters the ring whether or not the offer is stored. -/
def addDht (H512 : Hash) (deref : R → CidOffer) (t : Clock) (m : Mgr R) (r : R) : Except Fault (Mgr R × Bool) :=
  match (deref r).cids with
  | [c] => do
    let ring ← Ring.insert m.ring (Ids.toStr c)
    let (s, ok) ← add H512 deref t m.dht r
    return ({ m with dht := s, ring := ring }, ok)
  | _ => .ok (m, false)

/-- offer_manager.go:67-70 `GetGroupOffers`. -/
def getGroup (H512 : Hash) (deref : R → CidOffer) (order : DigestMap R → DigestMap R) (t : Clock) (m : Mgr R) (c : Id) :
    Except Fault (Mgr R × List CidOffer × Bool) := do
  let (g, res) ← get H512 deref order t m.group c
  return ({ m with group := g }, res, decide (res.length > 0))

/-- offer_manager.go:73-76 `GetDHTOffers`. -/
def getDht (H512 : Hash) (deref : R → CidOffer) (order : DigestMap R → DigestMap R) (t : Clock) (m : Mgr R) (c : Id) :
    Except Fault (Mgr R × List CidOffer × Bool) := do
  let (s, res) ← get H512 deref order t m.dht c
  return ({ m with dht := s }, res, decide (res.length > 0))

/-- offer_manager.go:94-99, the inner loop: append one by one, stopping once the limit is reached. -/
def appendUpTo (max : Int) (offers : List CidOffer) : List CidOffer → List CidOffer × Bool
  | [] => (offers, false)
  | o :: os => if (offers.length : Int) + 1 ≥ max then (offers ++ [o], true) else appendUpTo max (offers ++ [o]) os

/-- offer_manager.go:87-100, the outer loop over the entries of the ring. -/
def rangeGo (H512 : Hash) (deref : R → CidOffer) (order : DigestMap R → DigestMap R) (t : Clock) (max : Int) :
    List (List Char) → Storage R → List CidOffer → Except Fault (Storage R × List CidOffer × Bool)
  | [], st, offers => .ok (st, offers, decide (offers.length > 0))
  | entry :: rest, st, offers =>
    match Ids.fromHex entry with
    | none => .ok (st, offers, false)
    | some c => do
      let (st, temp) ← get H512 deref order t st c
      match appendUpTo max offers temp with
      | (offers, true) => return (st, offers, decide (offers.length > 0))
      | (offers, false) => rangeGo H512 deref order t max rest st offers

/-- offer_manager.go:79-103 `GetDHTOffersWithinRange`. -/
def getDhtRange (H512 : Hash) (deref : R → CidOffer) (order : DigestMap R → DigestMap R) (t : Clock) (m : Mgr R)
    (cidMin cidMax : Id) (max : Int) : Except Fault (Mgr R × List CidOffer × Bool) := do
  let (ring, entries) ← Ring.getWithinRange m.ring (Ids.toStr cidMin) (Ids.toStr cidMax)
  match entries with
  | .err => return ({ m with ring := ring }, [], false)
  | .val entries =>
    let (s, offers, ok) ← rangeGo H512 deref order t max entries m.dht []
    return ({ m with dht := s, ring := ring }, offers, ok)

/-- offer_manager.go:106-109 `GetOffers`. -/
def getOffers (H512 : Hash) (deref : R → CidOffer) (order : DigestMap R → DigestMap R) (t : Clock) (m : Mgr R) (c : Id) :
    Except Fault (Mgr R × List CidOffer × Bool) := do
  let (g, r1) ← get H512 deref order t m.group c
  let (s, r2) ← get H512 deref order t m.dht c
  return ({ m with group := g, dht := s }, r1 ++ r2, decide ((r1 ++ r2).length > 0))

/-- offer_manager.go:112-134 `GetOfferByDigest`; the entries of the outer maps are visited in the order given. -/
def getByDigest (orderE : Storage R → Storage R) (m : Mgr R) (d : Bytes) : Option R :=
  match (orderE m.dht).findSome? (fun e => mget e.2 d) with
  | some r => some r
  | none => (orderE m.group).findSome? (fun e => mget e.2 d)

end FcRetrieval.OfferMgr
