import Verif.Spec.RegMgr
import Verif.Spec.Ring
/-!
# Specification vocabulary: ranges of the ring and the gateways nearest to one of them
-/

namespace FcRetrieval.RegMgr
open FcRetrieval.Ids (Id Proper position)
open FcRetrieval.Ring (Hex cw circ)

/-- Going clockwise from `lo` to `hi`, one passes `g` (or `g` is one of the two ends). -/
def InArc (lo hi g : Id) : Prop := cw (position lo) (position g) ≤ cw (position lo) (position hi)

/-- From `x`, `y` is reached sooner going clockwise than going counter-clockwise. -/
def Ahead (x y : Id) : Prop := cw (position x) (position y) < cw (position y) (position x)

/-- `near` are gateways of the network `l` other than `id`, each at least as near to `id` as every one that is not in `near`. -/
structure Nearest (l : List Hex) (id : Id) (near : List Id) : Prop where
  gateways : ∀ g ∈ near, Proper g ∧ Ids.toStr g ∈ l ∧ g ≠ id
  nodup : near.Nodup
  nearest : ∀ a ∈ near, ∀ g : Id, Proper g → Ids.toStr g ∈ l → g ≠ id → g ∉ near →
    circ (position id) (position a) ≤ circ (position id) (position g)

end FcRetrieval.RegMgr
