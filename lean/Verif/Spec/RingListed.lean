import Verif.Model.RingListed
/-!
# Publications and listings at the same time
-/

namespace FcRetrieval.RingShared
open FcRetrieval.Ids (Id)

/-- The turns of publications. -/
def publishing (sch : List (Nat ⊕ Nat)) : List Nat :=
  sch.filterMap (fun e => match e with | .inl i => some i | .inr _ => none)

/-- A content that is not on offer and comes to the ring: one that is published, or an end of a range. -/
def Newcomer (on : List Id) (calls : List Call) (qs : List Query) (c : Id) : Prop :=
  c ∉ on ∧ ((∃ k ∈ calls, c = k.cid) ∨ ∃ q ∈ qs, c = q.lo ∨ c = q.hi)

end FcRetrieval.RingShared
