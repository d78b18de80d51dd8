/-!
# Go maps as association lists

The order of the entries is the order of first insertion; Go's iteration order is arbitrary, so code that iterates is
modelled with an explicit choice of order.
-/

namespace FcRetrieval

variable {κ ν : Type} [DecidableEq κ]

/-- `m[k]` with the second result: `none` if absent. -/
def mget (m : List (κ × ν)) (k : κ) : Option ν :=
  match m with
  | [] => none
  | (k', v) :: m => if k' = k then some v else mget m k

/-- `m[k] = v`. -/
def mset (m : List (κ × ν)) (k : κ) (v : ν) : List (κ × ν) :=
  match m with
  | [] => [(k, v)]
  | (k', v') :: m => if k' = k then (k, v) :: m else (k', v') :: mset m k v

/-- `delete(m, k)`. -/
def mdel (m : List (κ × ν)) (k : κ) : List (κ × ν) := m.filter (fun e => e.1 ≠ k)

/-- The keys. -/
def mkeys (m : List (κ × ν)) : List κ := m.map (·.1)

end FcRetrieval
