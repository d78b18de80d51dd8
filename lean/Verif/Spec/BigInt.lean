import Verif.Model.BigInt
import Verif.Spec.Payment
/-!
# Specification vocabulary for top-up amounts
-/

namespace FcRetrieval.BigInt

open Payment

/-- A number whose array has no room beyond its words. -/
def Tight (h : Heap) (n : Num) : Prop := n.arr < h.length ∧ (h.at n.arr).cap = n.len

/-- A number whose array has room for one word more. -/
def Roomy (h : Heap) (n : Num) : Prop := n.arr < h.length ∧ 0 < n.len ∧ n.len < (h.at n.arr).cap

/-- Every top-up in the history is called with a number of the given kind. -/
def AmountsAre (P : Num → Prop) (ops : List Op) : Prop := ∀ r n ch, Op.topup r n ch ∈ ops → P n

/-- The call as it was meant: with the value the number had when the program began. -/
def meant (h : Heap) : Op → PayOp
  | .topup r n ch => .topup r (read h n : Nat) ch
  | .pay r lane a => .pay r lane a

/-- The value of a list of decimal digits. -/
def decimal (ds : List Nat) : Nat := ds.foldl (fun v d => v * 10 + d) 0

/-- A list of decimal digits as they are written: not empty, no leading zero. -/
def Written (ds : List Nat) : Prop := (∀ d ∈ ds, d < 10) ∧ ∃ d rest, ds = d :: rest ∧ d ≠ 0

end FcRetrieval.BigInt
