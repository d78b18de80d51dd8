import Verif.Model.Pool
/-!
# Who waits for whom in the connection pool of `common/pkg/fcrp2pserver`

`Model/Pool` lets a request that removes a connection wait without holding the lock of the pool.  In the code it holds that lock
while it waits for the lock of the connection (pool.go:147-151), and everything else that needs the lock of the pool waits for it.
Here the removal is two steps, and the steps that take the lock of the pool wait while it is held.
-/

namespace FcRetrieval.Pool.Wait
open FcRetrieval.Pool

/-- Where a request is: as in `Model/Pool`, or holding the lock of the pool and waiting for the lock of the connection it found
there (pool.go:151). -/
inductive At where
  | pc (p : Pc)
  | removing (c : Nat)
  deriving DecidableEq

/-- A request: the node it is for, and where it is. -/
structure Req where
  node : Nat
  at_ : At
  deriving DecidableEq

/-- The pool, the number of connections opened so far, those closed, and the requests. -/
structure State where
  pool : List (Nat × Nat)
  next : Nat
  closed : List Nat
  reqs : List Req

/-- Some request holds the lock of the connection (server.go:177-182). -/
def busy (s : State) (c : Nat) : Bool := s.reqs.any (fun t => t.at_ == .pc (.talking c))

/-- This request holds the lock of the pool across a wait (pool.go:147-152). -/
def Req.removes (t : Req) : Bool :=
  match t.at_ with
  | .removing _ => true
  | .pc _ => false

/-- Some request holds the lock of the pool across a wait. -/
def held (s : State) : Bool := s.reqs.any Req.removes

/-- One step of request `i`; `ok` is what the network does.  A step that has to wait for a lock changes nothing.  The lock of the
pool is taken in pool.go:61, 86 and 147, that of a connection in server.go:177 and pool.go:151. -/
def step (s : State) (i : Nat) (ok : Bool) : State :=
  match s.reqs[i]? with
  | none => s
  | some t =>
    let go := fun (a : At) => s.reqs.set i { t with at_ := a }
    match t.at_ with
    | .pc .start =>
      -- pool.go:61-66
      if held s then s else
      match mget s.pool t.node with
      | some c => { s with reqs := go (.pc (.got c)) }
      | none => { s with reqs := go (.pc .dial) }
    | .pc .dial =>
      -- pool.go:68-83: no lock is held
      if ok then { s with next := s.next + 1, reqs := go (.pc (.dialled s.next)) } else { s with reqs := go (.pc (.done none)) }
    | .pc (.dialled c) =>
      -- pool.go:86-102
      if held s then s else
      match mget s.pool t.node with
      | none => { s with pool := mset s.pool t.node c, reqs := go (.pc (.got c)) }
      | some c' => { s with closed := s.closed ++ [c], reqs := go (.pc (.got c')) }
    | .pc (.got c) =>
      -- server.go:177
      if busy s c then s else { s with reqs := go (.pc (.talking c)) }
    | .pc (.talking c) =>
      -- server.go:178-188: the lock of the connection is released before anything else is done
      if ok ∧ c ∉ s.closed then { s with reqs := go (.pc (.done (some c))) } else { s with reqs := go (.pc .failed) }
    | .pc .failed =>
      -- pool.go:147-150
      if held s then s else
      match mget s.pool t.node with
      | none => { s with reqs := go (.pc (.done none)) }
      | some c => { s with reqs := go (.removing c) }
    | .removing c =>
      -- pool.go:151-157
      if busy s c then s
      else { s with pool := mdel s.pool t.node, closed := s.closed ++ [c], reqs := go (.pc (.done none)) }
    | .pc (.done _) => s

/-- Any interleaving. -/
def run (s : State) : List (Nat × Bool) → State
  | [] => s
  | (i, ok) :: l => run (step s i ok) l

/-- An empty pool and requests for these nodes. -/
def init (nodes : List Nat) : State := { pool := [], next := 0, closed := [], reqs := nodes.map (fun n => ⟨n, .pc .start⟩) }

end FcRetrieval.Pool.Wait
