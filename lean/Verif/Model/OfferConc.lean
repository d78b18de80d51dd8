import Verif.Model.OfferMgr
/-!
# Interleavings of calls on one offer storage (`common/pkg/fcroffermgr/offer_storage.go`)

One step is one critical section (the code between taking and releasing a lock) or one piece of code between two of them.
The digest maps are objects of their own, so they have addresses: a call may go on writing to one that has meanwhile been
replaced in the CID map.  Every step comes with the time the clock shows.  A step that would have to wait for a lock leaves
everything as it is.
-/

namespace FcRetrieval.OfferMgr.Conc
open FcRetrieval.Ids (Id)
open FcRetrieval.Merkle (Hash)
open FcRetrieval.Offer (CidOffer)

/-- The text of a CID, the key of the map. -/
abbrev Key := List Char

/-- offer_storage.go:33-37: the CID map, which points to digest maps; `heap[a]` is the digest map at address `a`.
`readers` counts the calls that hold the read lock over several steps, `unlocked` those that iterate over the map without
its lock (`GetOfferByDigest`, offer_manager.go:125, on the group offers). -/
structure Shared where
  cidMap : List (Key × Nat)
  heap : List (DigestMap CidOffer)
  readers : Nat
  unlocked : Nat

/-- The digest map at an address. -/
def Shared.dmap (s : Shared) (a : Nat) : DigestMap CidOffer := (s.heap[a]?).getD []

/-- What the storage holds, with the pointers followed. -/
def Shared.view (s : Shared) : Storage CidOffer := s.cidMap.map (fun e => (e.1, s.dmap e.2))

/-- A call in progress. -/
inductive Call where
  | add (o : CidOffer)
  | get (c : Id)
  | byDigest (d : Bytes)

/-- What calls return. -/
inductive Answer where
  | added (ok : Bool)
  | found (l : List CidOffer)
  | one (o : Option CidOffer)

/-- Where a call stands. -/
inductive Pc where
  | start
  /-- `add`, line 60: an entry for the first CID was found at this address -/
  | check (a : Nat) (d : Bytes)
  /-- `add`, line 69: the offer is new -/
  | fresh (d : Bytes)
  /-- `add`, line 73: these CIDs are still to be done -/
  | next (d : Bytes) (rest : List Key)
  /-- `add`, line 80: no entry was found for `k` -/
  | create (d : Bytes) (k : Key) (rest : List Key)
  /-- `add`, line 89: the offer goes into the digest map at `a`, found or made for `k` -/
  | write (d : Bytes) (k : Key) (a : Nat) (rest : List Key)
  /-- `get`, line 107 -/
  | scan (a : Nat)
  /-- `get`, line 120: these are to be removed, those returned -/
  | wait (todo : List (Bytes × Key)) (res : List CidOffer)
  /-- `get`, line 121, holding the read lock -/
  | clean (todo : List (Bytes × Key)) (res : List CidOffer)
  /-- `GetOfferByDigest`, line 125, iterating over the CID map -/
  | iterate (d : Bytes)
  | done (out : Answer)
  /-- the program has crashed -/
  | crashed

/-- For every expired offer its digest with each of its CIDs (offer_storage.go:121-124). -/
def removals (H512 : Hash) : List CidOffer → Option (List (Bytes × Key))
  | [] => some []
  | o :: os =>
    match digestOf H512 o, removals H512 os with
    | .ok d, some rest => some ((Ids.mapToString o.cids).map (fun k => (d, k)) ++ rest)
    | _, _ => none

/-- One step of `add` (offer_storage.go:48-94). -/
def addStep (H512 : Hash) (t : Clock) (s : Shared) (o : CidOffer) : Pc → Shared × Pc
  | .start =>
    match o.cids with
    | [] => (s, .done (.added false))
    | c :: _ =>
      match digestOf H512 o with
      | .error _ => (s, .crashed)
      | .ok d =>
        match mget s.cidMap (Ids.toStr c) with
        | some a => (s, .check a d)
        | none => (s, .fresh d)
  | .check a d => if (mget (s.dmap a) d).isSome then (s, .done (.added true)) else (s, .fresh d)
  | .fresh d => if expired o t then (s, .done (.added false)) else (s, .next d (Ids.mapToString o.cids))
  | .next _ [] => (s, .done (.added true))
  | .next d (k :: rest) =>
    match mget s.cidMap k with
    | some a => (s, .write d k a rest)
    | none => (s, .create d k rest)
  | .create d k rest =>
    if s.readers > 0 then (s, .create d k rest)
    else if s.unlocked > 0 then (s, .crashed)
    else ({ s with cidMap := mset s.cidMap k s.heap.length, heap := s.heap ++ [[]] }, .write d k s.heap.length rest)
  | .write d _ a rest => ({ s with heap := s.heap.set a (mset (s.dmap a) d o) }, .next d rest)
  | pc => (s, pc)

/-- One step of `get` (offer_storage.go:97-138). -/
def getStep (H512 : Hash) (order : DigestMap CidOffer → DigestMap CidOffer) (t : Clock) (s : Shared) (c : Id) : Pc → Shared × Pc
  | .start =>
    match mget s.cidMap (Ids.toStr c) with
    | none => (s, .done (.found []))
    | some a => (s, .scan a)
  | .scan a =>
    let all := (order (s.dmap a)).map (·.2)
    match removals H512 (all.filter (fun o => expired o t)) with
    | none => (s, .crashed)
    | some todo => (s, .wait todo (all.filter (fun o => !expired o t)))
  | .wait todo res => ({ s with readers := s.readers + 1 }, .clean todo res)
  | .clean [] res => ({ s with readers := s.readers - 1 }, .done (.found res))
  | .clean ((d, k) :: todo) res =>
    match mget s.cidMap k with
    | none => (s, .crashed)
    | some a => ({ s with heap := s.heap.set a (mdel (s.dmap a) d) }, .clean todo res)
  | pc => (s, pc)

/-- The part of `GetOfferByDigest` on the group offers (offer_manager.go:124-132), which does not take the storage's lock.
Simplification: the entries are all read when the iteration ends. -/
def byDigestStep (s : Shared) (d : Bytes) : Pc → Shared × Pc
  | .start => ({ s with unlocked := s.unlocked + 1 }, .iterate d)
  | .iterate d => ({ s with unlocked := s.unlocked - 1 }, .done (.one (s.view.findSome? (fun e => mget e.2 d))))
  | pc => (s, pc)

/-- One step of a call. -/
def step (H512 : Hash) (order : DigestMap CidOffer → DigestMap CidOffer) (t : Clock) (s : Shared) : Call → Pc → Shared × Pc
  | .add o, pc => addStep H512 t s o pc
  | .get c, pc => getStep H512 order t s c pc
  | .byDigest d, pc => byDigestStep s d pc

/-- The storage and the calls in progress. -/
structure Sys where
  shared : Shared
  threads : List (Call × Pc)

/-- Call `i` takes one step at time `t`. -/
def sysStep (H512 : Hash) (order : DigestMap CidOffer → DigestMap CidOffer) (s : Sys) (e : Nat × Clock) : Sys :=
  match s.threads[e.1]? with
  | none => s
  | some (call, pc) =>
    let r := step H512 order e.2 s.shared call pc
    ⟨r.1, s.threads.set e.1 (call, r.2)⟩

/-- Run a schedule: which call moves, and when. -/
def sysRun (H512 : Hash) (order : DigestMap CidOffer → DigestMap CidOffer) (s : Sys) (sched : List (Nat × Clock)) : Sys :=
  sched.foldl (sysStep H512 order) s

/-- A storage on which calls are about to start. -/
def begin_ (s : Shared) (calls : List Call) : Sys := ⟨s, calls.map (fun c => (c, .start))⟩

/-- offer_storage.go:40-45 `newOfferStorage`. -/
def newShared : Shared := ⟨[], [], 0, 0⟩

end FcRetrieval.OfferMgr.Conc
