import Verif.Model.RegNear
/-!
# Any number of lookups by nearness at the same time

`GetGatewaysNearCID` holds only read locks (register_manager.go:331-334), so that the parts of several lookups may follow one another in any
order.
-/

namespace FcRetrieval.RegMgr
open FcRetrieval.Ids (Id)
open FcRetrieval.Ring (Fault Ret)
open FcRetrieval.Register (Record)

/-- The arguments of one lookup (register_manager.go:318-320), no exclusion. -/
structure NearCall where
  cid : Id
  num : Int

/-- How far a lookup has come: not begun; the insertion done (with what dhtring.go:256 has found); answered. -/
inductive NearStage where
  | begun
  | inside (isNew : Bool)
  | answered (a : Ret (List Record))

/-- The manager all lookups share, and the stage of the lookup with a given number. -/
structure Nears where
  mgr : Mgr
  stage : Nat → NearStage

def Nears.set (w : Nears) (m : Mgr) (i : Nat) (s : NearStage) : Nears :=
  ⟨m, fun j => if j = i then s else w.stage j⟩

/-- Lookup `i` takes its next part (register_manager.go:318-354 with dhtring.go:253-310).  Simplified: each of the two parts runs without
interruption, and the count is between one and the number of gateways. -/
def nearTick (qs : List NearCall) (w : Nears) (i : Nat) : Except Fault Nears :=
  match qs[i]? with
  | none => .ok w
  | some q =>
    match w.stage i with
    | .begun => do
      let m ← nearBegin w.mgr q.cid
      return w.set m i (.inside (m.ring.size ≠ w.mgr.ring.size))
    | .inside isNew => do
      let (m, a) ← nearRest w.mgr q.cid (if q.num > 16 then 16 else q.num) isNew
      return w.set m i (.answered a)
    | .answered _ => .ok w

/-- The lookups take their parts in the order of the schedule. -/
def nearPlay (qs : List NearCall) : Nears → List Nat → Except Fault Nears
  | w, [] => .ok w
  | w, i :: sched => do
    let w ← nearTick qs w i
    nearPlay qs w sched

end FcRetrieval.RegMgr
