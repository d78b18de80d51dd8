import Verif.Model.RegMgr
/-!
# `GetGatewaysNearCID` in two parts

The lookup changes the ring while it runs: it puts the CID into the ring, reads the ring and takes the CID out again.  It holds only read
locks (register_manager.go:331-334), so that other lookups may run between the parts.
-/

namespace FcRetrieval.RegMgr
open FcRetrieval.Ids (Id)
open FcRetrieval.Ring (Fault Ret Hex)
open FcRetrieval.Register (Record)

/-- register_manager.go:326-339 with dhtring.go:253-255, no exclusion, count between one and the number of gateways: up to the insertion. -/
def nearBegin (m : Mgr) (cid : Id) : Except Fault Mgr := do
  return { m with ring := ← Ring.insert m.ring (Ids.toStr cid) }

/-- The loop register_manager.go:345-354. -/
def nearAnswer (m : Mgr) (ids : List Hex) : Mgr × Ret (List Record) :=
  match resolve m ids with
  | none => (m, .err)
  | some rs => (m, .val rs)

/-- dhtring.go:256-310 and register_manager.go:341-354: the rest, where `isNew` tells whether the insertion has made the ring larger
(dhtring.go:256). -/
def nearRest (m : Mgr) (cid : Id) (num : Int) (isNew : Bool) : Except Fault (Mgr × Ret (List Record)) := do
  if isNew then
    let ids ← Ring.searchAndExpand m.ring (Ids.toStr cid) num []
    let ring ← Ring.remove m.ring (Ids.toStr cid)
    return nearAnswer { m with ring := ring } ids
  else if num = 1 then
    return nearAnswer m [Ids.toStr cid]
  else
    let ids ← Ring.searchAndExpand m.ring (Ids.toStr cid) num [Ids.toStr cid]
    return nearAnswer m ids

end FcRetrieval.RegMgr
