import Verif.Model.NearMany
import Verif.Spec.Ids
import Verif.Spec.Ring
/-!
# What lookups by nearness answer, and when they are apart
-/

namespace FcRetrieval.RegMgr
open FcRetrieval.Ids (Id)
open FcRetrieval.Ring (Fault Ret Hex IsRing keyOf circ)
open FcRetrieval.Register (Record)

/-- `rs` are as many different known gateways as are asked for (at most 16), and no gateway left out is nearer to the CID than one of them. -/
def NearestOf (m : Mgr) (q : NearCall) (rs : List Record) : Prop :=
  (rs.length : Int) = min q.num 16 ∧ (rs.map (·.nodeID)).Nodup ∧ (∀ r ∈ rs, r ∈ getAllGateways m) ∧
    ∀ r ∈ rs, ∀ r' ∈ getAllGateways m, r' ∉ rs → circ (Ids.position q.cid) (keyOf r.nodeID) ≤ circ (Ids.position q.cid) (keyOf r'.nodeID)

/-- Lookups that do not come near one another: every CID is a proper one, and some gateway is at or below it; every count is between one and
the number of gateways; two lookups for the same CID are for a gateway's; and as many gateways as a lookup asks for are nearer to its CID than
the CID of any other lookup that is for no gateway. -/
structure Apart (l : List Hex) (qs : List NearCall) : Prop where
  proper : ∀ q ∈ qs, Ids.Proper q.cid
  above : ∀ q ∈ qs, ∃ x ∈ l, keyOf x ≤ Ids.position q.cid
  atLeastOne : ∀ q ∈ qs, 1 ≤ q.num
  enough : ∀ q ∈ qs, min q.num 16 ≤ l.length
  distinct : qs.Pairwise (fun q q' => q.cid = q'.cid → Ids.toStr q.cid ∈ l)
  apart : ∀ q ∈ qs, ∀ q' ∈ qs, q'.cid ≠ q.cid → Ids.toStr q'.cid ∉ l →
    min q.num 16 ≤ ((l.filter (fun x => circ (Ids.position q.cid) (keyOf x) < circ (Ids.position q.cid) (Ids.position q'.cid))).length : Int)

end FcRetrieval.RegMgr
