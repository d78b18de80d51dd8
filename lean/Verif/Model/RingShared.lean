import Verif.Model.OfferMgr
/-!
# The ring of DHT offers used by several calls at a time (`common/pkg/dhtring/dhtring.go`, `common/pkg/fcroffermgr/offer_manager.go`)

The offer manager calls its ring without any lock (offer_manager.go:63, 81), and the handlers of a provider run at the same time.  Here
`Insert` is cut in two, before its first pointer write, and `GetWithinRange` in three: before and after its loop.  Simplifications: each part runs without
interruption, so what is said about the interleavings of these parts holds for some of the interleavings of the code, not for all; and `r.head` is read
once by `Insert`, in its first part.
-/

namespace FcRetrieval.RingShared
open FcRetrieval.Ids (Id)
open FcRetrieval.Merkle (Hash)
open FcRetrieval.Offer (CidOffer)
open FcRetrieval.OfferMgr (Mgr Clock)
open FcRetrieval.Ring (Ring Hex Fault deref insertLoop putBetween allocNode validateInput ensure dropTemp rangeLoop)

/-- What `Insert` has found before it writes: the new node and its place (dhtring.go:79-141); `front` if it becomes the head. -/
structure Place where
  node : Nat
  prv : Nat
  current : Nat
  far : Nat
  front : Bool

/-- dhtring.go:56-107, 125-129: the first part of `Insert`, up to the pointer writes.  `none`: there is nothing to write. -/
def insertLook (r : Ring) (hex : Hex) : Except Fault (Ring × Option Place) :=
  if validateInput hex = false then .ok (r, none)
  else do
    let n := r.cap
    let r := allocNode r hex
    let r := if r.size = 0 then { r with head := some n, size := r.size + 1 } else r
    let head ← deref r.head
    if (r.heap head).key = (r.heap n).key then
      return (r, none)
    if (r.heap head).key > (r.heap n).key then
      return (r, some ⟨n, (r.heap head).prv.getD head, head, head, true⟩)
    match ← insertLoop r.heap (r.heap head).val (r.heap n).key (r.cap + 1) head (r.heap head).next with
    | .exists => return (r, none)
    | .between prv current => return (r, some ⟨n, prv, current, current, false⟩)
    | .atEnd prv current? => return (r, some ⟨n, prv, current?.getD prv, head, false⟩)

/-- dhtring.go:84-95, 108-117, 130-141: the second part of `Insert`, the pointer writes. -/
def insertLink (r : Ring) : Option Place → Ring
  | none => r
  | some p => { r with
      heap := putBetween r.heap p.prv p.node p.current p.far
      head := if p.front then some p.node else r.head
      size := r.size + 1 }

/-- A listing that has found both ends: their nodes, and whether they were stored (dhtring.go:322-345). -/
structure Listing where
  startNode : Nat
  addStart : Bool
  endNode : Nat
  addEnd : Bool

/-- dhtring.go:313-345: the first part of `GetWithinRange`.  `none`: it has returned an error. -/
def listBegin (r : Ring) (startHex endHex : Hex) : Except Fault (Ring × Option Listing) := do
  if validateInput startHex = false ∨ validateInput endHex = false then
    return (r, none)
  let (r1, addStart, s) ← ensure r startHex
  match s with
  | none => return (r1, none)
  | some startNode =>
    let (r2, addEnd, e) ← ensure r1 endHex
    match e with
    | none =>
      let r4 ← dropTemp r2 startHex addStart
      return (r4, none)
    | some endNode => return (r2, some ⟨startNode, addStart, endNode, addEnd⟩)

/-- dhtring.go:346-360: the second part, the loop, with a bound on the number of nodes looked at. -/
def listWalk (r : Ring) (startHex endHex : Hex) (l : Listing) (fuel : Nat) : Except Fault (List Hex) := do
  let mid ← rangeLoop r.heap (r.heap l.endNode).val fuel (r.heap l.startNode).next
  return (if l.addStart then [startHex] else []) ++ mid ++ (if l.addEnd then [endHex] else [])

/-- dhtring.go:331, 343: the third part, the deferred removals. -/
def listEnd (r : Ring) (startHex endHex : Hex) (l : Listing) : Except Fault Ring := do
  let r3 ← dropTemp r endHex l.addEnd
  dropTemp r3 startHex l.addStart

/-- offer_manager.go:58-64: two calls of `AddDHTOffer`, for one-CID offers `o` of `c` and `o'` of `c'`, at the same time: both search the ring, the first
first, then both write to it, with `swap` the second first, and then both store their offer.  The answers tell whether each was stored. -/
def addTwo (H512 : Hash) (swap : Bool) (t : Clock) (m : Mgr CidOffer) (o o' : CidOffer) (c c' : Id) : Except Fault (Mgr CidOffer × Bool × Bool) := do
  let (r1, p) ← insertLook m.ring (Ids.toStr c)
  let (r2, p') ← insertLook r1 (Ids.toStr c')
  let r4 := if swap then insertLink (insertLink r2 p') p else insertLink (insertLink r2 p) p'
  let (s1, ok) ← OfferMgr.add H512 id t m.dht o
  let (s2, ok') ← OfferMgr.add H512 id t s1 o'
  return ({ m with dht := s2, ring := r4 }, ok, ok')

/-- offer_manager.go:81: two calls of `GetDHTOffersWithinRange` for the same range at the same time: the second finds the ends of the range that the first has
put into the ring, and the first takes them out again before the second walks.  The result is the ring the second one walks, and how it walks. -/
def listTwo (r : Ring) (x y : Hex) : Except Fault (Ring × List Hex × Listing) := do
  let (r1, l1?) ← listBegin r x y
  let (r2, l2?) ← listBegin r1 x y
  match l1?, l2? with
  | some l1, some l2 =>
    let res ← listWalk r2 x y l1 (r2.cap + 1)
    let r3 ← listEnd r2 x y l1
    return (r3, res, l2)
  | _, _ => .error .panic

/-- offer_manager.go:58-64, 81: a call of `AddDHTOffer`, for a one-CID offer `o` of `c`, while a call of `GetDHTOffersWithinRange` lists from `x` to `y`: the
publication searches the ring when the listing has walked, and writes to it when the listing has ended; then it stores the offer.  The answers are whether it was
stored, and what the listing found. -/
def addWhileListing (H512 : Hash) (t : Clock) (m : Mgr CidOffer) (o : CidOffer) (c : Id) (x y : Hex) : Except Fault (Mgr CidOffer × Bool × List Hex) := do
  let (r1, l?) ← listBegin m.ring x y
  match l? with
  | none => .error .panic
  | some l =>
    let res ← listWalk r1 x y l (r1.cap + 1)
    let (r2, p) ← insertLook r1 (Ids.toStr c)
    let r3 ← listEnd r2 x y l
    let (s1, ok) ← OfferMgr.add H512 id t m.dht o
    return ({ m with dht := s1, ring := insertLink r3 p }, ok, res)

/-- One call of `AddDHTOffer` for a one-CID offer: the time at which it stores, the offer and its CID. -/
structure Call where
  time : Clock
  offer : CidOffer
  cid : Id

/-- How far a call of `AddDHTOffer` is (offer_manager.go:58-64). -/
inductive Stage where
  | begun
  | found (p : Option Place)
  | linked
  | done (ok : Bool)

/-- The manager and the calls in progress. -/
structure World where
  mgr : Mgr CidOffer
  stage : Nat → Stage

/-- offer_manager.go:58-64: the next part of the `i`-th call: search the ring, write to it, store.  Simplification: storing is one part (its own interleavings are
`Model/OfferConc`). -/
def tick (H512 : Hash) (calls : List Call) (w : World) (i : Nat) : Except Fault World :=
  match calls[i]? with
  | none => .ok w
  | some c =>
    match w.stage i with
    | .begun => do
      let (r, p) ← insertLook w.mgr.ring (Ids.toStr c.cid)
      return ⟨{ w.mgr with ring := r }, fun j => if j = i then .found p else w.stage j⟩
    | .found p => .ok ⟨{ w.mgr with ring := insertLink w.mgr.ring p }, fun j => if j = i then .linked else w.stage j⟩
    | .linked => do
      let (s, ok) ← OfferMgr.add H512 id c.time w.mgr.dht c.offer
      return ⟨{ w.mgr with dht := s }, fun j => if j = i then .done ok else w.stage j⟩
    | .done _ => .ok w

/-- The calls go on in the order of the schedule, which names the call whose turn it is. -/
def play (H512 : Hash) (calls : List Call) : World → List Nat → Except Fault World
  | w, [] => .ok w
  | w, i :: sch => do
    let w ← tick H512 calls w i
    play H512 calls w sch

end FcRetrieval.RingShared
