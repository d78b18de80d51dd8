import Verif.Model.RegMgr
import Verif.Spec.Ids
/-!
# Specification vocabulary for the register manager
-/

namespace FcRetrieval.RegMgr
open FcRetrieval.Ids (Id)
open FcRetrieval.Ring (Fault Hex IsRing)
open FcRetrieval.Register (Record)

/-- What the update routines hear: one answer of the register, to the gateway routine or to the provider routine. -/
inductive Event where
  | gateways (a : Answer)
  | providers (a : Answer)

/-- The manager after one answer. -/
def hear (m : Mgr) : Event → Except Fault Mgr
  | .gateways a => roundGateways m a
  | .providers a => roundProviders m a

/-- The manager after these answers. -/
def hearAll (m : Mgr) : List Event → Except Fault Mgr
  | [] => .ok m
  | e :: es => do hearAll (← hear m e) es

/-- A manager just started, before its first round. -/
def fresh (providerDiscv gatewayDiscv : Bool) : Mgr := { new providerDiscv gatewayDiscv with started := true }

/-- The records of an answer. -/
def records (a : Answer) : List Record := (a.getD []).filterMap id

/-- All gateway records reported, oldest first. -/
def gatewayReports : List Event → List Record
  | [] => []
  | .gateways a :: es => records a ++ gatewayReports es
  | .providers _ :: es => gatewayReports es

/-- All provider records reported, oldest first. -/
def providerReports : List Event → List Record
  | [] => []
  | .gateways _ :: es => providerReports es
  | .providers a :: es => records a ++ providerReports es

/-- The last of these records with this identifier. -/
def latest (id : Hex) (rs : List Record) : Option Record := rs.reverse.find? (fun r => r.nodeID = id)

/-- The answer has no `null` element. -/
def NoNull (a : Answer) : Prop := ∀ l, a = some l → none ∉ l

/-- None of the answers has a `null` element. -/
def NoNulls (es : List Event) : Prop := ∀ e ∈ es, ∀ a, e = .gateways a ∨ e = .providers a → NoNull a

/-- The text is an identifier the way the code prints it. -/
def Canonical (s : Hex) : Prop := ∃ id : Id, Ids.Proper id ∧ s = Ids.toStr id

/-- The table of gateways and the ring hold the same identifiers, all canonical, and each record is stored under its identifier. -/
structure Consistent (m : Mgr) (l : List Hex) : Prop where
  ring : IsRing m.ring l
  same : ∀ x, x ∈ l ↔ x ∈ mkeys m.gateways
  nodup : (mkeys m.gateways).Nodup
  named : ∀ x r, mget m.gateways x = some r → r.nodeID = x
  canonical : ∀ x ∈ l, Canonical x

end FcRetrieval.RegMgr
