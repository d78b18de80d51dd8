import Verif.Model.Register
import Verif.Model.Ring
import Verif.Model.Ids
/-!
# Model of `common/pkg/fcrregistermgr/register_manager.go`, one call at a time

What the register answers to a listing is an input.  The update routines run to their next waiting point in one step.  Locks,
channels and interleavings are in `Model/RegLocks` and `Model/RegRefresh`.
-/

namespace FcRetrieval.RegMgr
open FcRetrieval.Ids (Id)
open FcRetrieval.Ring (Fault Ring Ret Hex)
open FcRetrieval.Register (Record Kind Service)

/-- register_manager.go:39-72.  The second component of an entry is the record (the code stores a pointer to it). -/
structure Mgr where
  started : Bool
  gatewayDiscv : Bool
  providerDiscv : Bool
  gateways : List (Hex × Record)
  ring : Ring
  providers : List (Hex × Record)

/-- register_manager.go:75-99 `NewFCRRegisterMgr`.  The ring exists only with gateway discovery; see `getGatewaysNear`. -/
def new (providerDiscv gatewayDiscv : Bool) : Mgr :=
  { started := false, gatewayDiscv := gatewayDiscv, providerDiscv := providerDiscv, gateways := [], ring := Ring.createRing, providers := [] }

/-- The answer to a listing: `none` if the request failed or the answer is not a list of records; `null` elements are nil pointers. -/
abbrev Answer := Option (List (Option Record))

/-- The loop register_manager.go:268-270, 291-293: `g.NodeID` of a nil pointer panics. -/
def derefAll : List (Option Record) → Except Fault (List Record)
  | [] => .ok []
  | none :: _ => .error .panic
  | some r :: l => do return r :: (← derefAll l)

/-- register_manager.go:250-272 `pullGatewaysFromRegisterSrv`, 275-295 `pullProvidersFromRegisterSrv`. -/
def pull (m : Mgr) (discv : Bool) (a : Answer) : Except Fault (List Record) :=
  if m.started = false ∨ discv = false then .ok []
  else
    match a with
    | none => .ok []
    | some l => derefAll l

/-- register_manager.go:371-392, one gateway of the answer. The two records compared in line 385 are pointers, always different. -/
def storeGateway (m : Mgr) (r : Record) : Except Fault Mgr :=
  match mget m.gateways r.nodeID with
  | none => do
    let ring ← Ring.insert m.ring r.nodeID
    return { m with gateways := mset m.gateways r.nodeID r, ring := ring }
  | some _ => .ok { m with gateways := mset m.gateways r.nodeID r }

/-- register_manager.go:421-439, one provider of the answer. -/
def storeProvider (m : Mgr) (r : Record) : Mgr := { m with providers := mset m.providers r.nodeID r }

/-- The loop over the answer. -/
def storeGateways (m : Mgr) : List Record → Except Fault Mgr
  | [] => .ok m
  | r :: l => do storeGateways (← storeGateway m r) l

/-- register_manager.go:366-413 `updateGateways`, one round. -/
def roundGateways (m : Mgr) (a : Answer) : Except Fault Mgr := do
  storeGateways m (← pull m m.gatewayDiscv a)

/-- register_manager.go:416-460 `updateProviders`, one round. -/
def roundProviders (m : Mgr) (a : Answer) : Except Fault Mgr := do
  return (← pull m m.providerDiscv a).foldl storeProvider m

/-- register_manager.go:150-162 `Refresh`, with the answers to the two listings. -/
def refresh (m : Mgr) (g p : Answer) : Except Fault Mgr := do
  if m.started = false then return m
  let m1 ← if m.gatewayDiscv then roundGateways m g else pure m
  if m1.providerDiscv then roundProviders m1 p else pure m1

/-- register_manager.go:102-114 `Start`: the update routines begin with a round. -/
def start (m : Mgr) (g p : Answer) : Except Fault (Mgr × Bool) := do
  if m.started then return (m, false)
  return (← refresh { m with started := true } g p, true)

/-- register_manager.go:117-128 `Shutdown` (and 132-147 `ShutdownAndWait`), with 462-500: the tables are emptied, and the register is
told to delete everything. -/
def shutdown (m : Mgr) (s : Service) : Mgr × Service :=
  if m.started = false then (m, s)
  else
    let (m, s) := if m.gatewayDiscv then ({ m with gateways := [] }, Register.deleteAll s .gateway) else (m, s)
    let (m, s) := if m.providerDiscv then ({ m with providers := [] }, Register.deleteAll s .provider) else (m, s)
    ({ m with started := false }, s)

/-- register_manager.go:177-195 `GetGateway`; the answers are used if it refreshes. -/
def getGateway (m : Mgr) (id : Id) (g p : Answer) : Except Fault (Mgr × Option Record) := do
  if m.started = false ∨ m.gatewayDiscv = false then return (m, none)
  match mget m.gateways (Ids.toStr id) with
  | some r => return (m, some r)
  | none =>
    let m ← refresh m g p
    return (m, mget m.gateways (Ids.toStr id))

/-- register_manager.go:198-217 `GetProvider`. -/
def getProvider (m : Mgr) (id : Id) : Option Record :=
  if m.started = false ∨ m.providerDiscv = false then none else mget m.providers (Ids.toStr id)

/-- register_manager.go:220-232 `GetAllGateways`, in any order; here in the order of the model's list. -/
def getAllGateways (m : Mgr) : List Record :=
  if m.started = false ∨ m.gatewayDiscv = false then [] else m.gateways.map (·.2)

/-- register_manager.go:235-247 `GetAllProviders`. -/
def getAllProviders (m : Mgr) : List Record :=
  if m.started = false ∨ m.providerDiscv = false then [] else m.providers.map (·.2)

/-- The loop register_manager.go:346-352. -/
def resolve (m : Mgr) : List Hex → Option (List Record)
  | [] => some []
  | id :: ids => do
    let r ← mget m.gateways id
    let rs ← resolve m ids
    return r :: rs

/-- register_manager.go:326-354 `GetGatewaysNearCID`.  Without gateway discovery there is no ring (75-98), and the ring code reaches
through a nil pointer after it has checked its arguments and the count (dhtring.go:229-234). -/
def getGatewaysNear (m : Mgr) (cid : Id) (num : Int) (notAllowed : Option Id) : Except Fault (Mgr × Ret (List Record)) := do
  let num := if num > 16 then 16 else num
  if m.gatewayDiscv = false ∧ num ≠ 0 ∧ Ring.validateInput (Ids.toStr cid) ∧ (∀ n, notAllowed = some n → Ring.validateInput (Ids.toStr n)) then
    throw .panic
  let (ring, ids) ← Ring.getClosest m.ring (Ids.toStr cid) num (match notAllowed with | none => [] | some n => Ids.toStr n)
  match ids with
  | .err => return ({ m with ring := ring }, .err)
  | .val ids =>
    match resolve m ids with
    | none => return ({ m with ring := ring }, .err)
    | some rs => return ({ m with ring := ring }, .val rs)

/-- register_manager.go:298-323 `GetGatewayCIDRange`. -/
def getGatewayCIDRange (m : Mgr) (id : Id) : Except Fault (Mgr × Ret (Id × Id)) := do
  match Ids.fromHex (Ids.toStr id) with
  | none => return (m, .err)
  | some c =>
    let (m, res) ← getGatewaysNear m c 16 (some id)
    match res with
    | .err => return (m, .err)
    | .val rs =>
      match rs.head?, rs.getLast? with
      | some a, some b =>
        if rs.length < 2 then return (m, .err)
        else
          match Ids.fromHex a.nodeID, Ids.fromHex b.nodeID with
          | some lo, some hi => return (m, .val (lo, hi))
          | _, _ => return (m, .err)
      | _, _ => return (m, .err)

end FcRetrieval.RegMgr
