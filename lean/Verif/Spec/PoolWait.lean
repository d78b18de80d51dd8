import Verif.Model.PoolWait
/-!
# What is said about requests that wait
-/

namespace FcRetrieval.Pool.Wait
open FcRetrieval.Pool

/-- The request has returned to its caller. -/
def Returned (t : Req) : Prop := ∃ r, t.at_ = .pc (.done r)

/-- The request cannot go on, whatever the network does. -/
def Waits (s : State) (i : Nat) : Prop := ∀ ok, step s i ok = s

/-- In this schedule no turn is given to a request that has to wait or has returned. -/
def NoIdle (s : State) : List (Nat × Bool) → Prop
  | [] => True
  | (i, ok) :: l => step s i ok ≠ s ∧ NoIdle (step s i ok) l

/-- A state some interleaving of some requests on an empty pool can reach. -/
def Reachable (s : State) : Prop := ∃ nodes l, s = run (init nodes) l

/-- Where a request is, seen without the lock of the pool: one that waits to remove a connection has not begun to do so. -/
def At.seen : At → Pc
  | .pc p => p
  | .removing _ => .failed

/-- The same state, seen without the lock of the pool. -/
def seen (s : State) : Sys :=
  { pool := s.pool, next := s.next, closed := s.closed
    threads := s.reqs.map (fun t => ⟨t.node, t.at_.seen⟩) }

end FcRetrieval.Pool.Wait
