import Verif.Model.Maps
/-!
# Model of the connection pool of `common/pkg/fcrp2pserver` under concurrent requests

The pool for gateways (pool.go:60-103, 146-158) and the pool for providers (pool.go:106-143, 161-173) have the same code; one of
them is modelled.  Nodes and connections are numbers; a fresh number is a new connection.  A request is a thread; one step of a
thread is what it does between two points where others can interfere.
-/

namespace FcRetrieval.Pool

/-- Where a request is.  server.go:164-189, 192-217, 220-245 and pool.go. -/
inductive Pc where
  /-- before looking into the pool (pool.go:61) -/
  | start
  /-- not in the pool; before the lookup of the address and the dialling (pool.go:68) -/
  | dial
  /-- connected; before taking the lock of the pool (pool.go:86) -/
  | dialled (c : Nat)
  /-- has a connection; before taking its lock (server.go:177) -/
  | got (c : Nat)
  /-- talking to the peer, holding the lock of the connection (server.go:178-181) -/
  | talking (c : Nat)
  /-- the exchange failed; before removing the connection from the pool (server.go:185) -/
  | failed
  /-- returned: with a response obtained over this connection, or with an error -/
  | done (c : Option Nat)
  deriving DecidableEq

/-- A request: the node it is for, and where it is. -/
structure Thread where
  node : Nat
  pc : Pc
  deriving DecidableEq

/-- The pool, the connections opened so far (their number), those closed (in order; closing one a
second time would panic), and the requests. -/
structure Sys where
  pool : List (Nat × Nat)
  next : Nat
  closed : List Nat
  threads : List Thread

/-- Some request holds the lock of the connection. -/
def locked (s : Sys) (c : Nat) : Bool := s.threads.any (fun t => t.pc == .talking c)

/-- One step of thread `i`; `ok` is what the network does (dialling succeeds, the exchange succeeds).  A step that waits for a lock
changes nothing. -/
def step (s : Sys) (i : Nat) (ok : Bool) : Sys :=
  match s.threads[i]? with
  | none => s
  | some t =>
    let go := fun (pc : Pc) => s.threads.set i { t with pc := pc }
    match t.pc with
    | .start =>
      -- pool.go:61-66
      match mget s.pool t.node with
      | some c => { s with threads := go (.got c) }
      | none => { s with threads := go .dial }
    | .dial =>
      -- pool.go:68-83
      if ok then { s with next := s.next + 1, threads := go (.dialled s.next) } else { s with threads := go (.done none) }
    | .dialled c =>
      -- pool.go:86-102
      match mget s.pool t.node with
      | none => { s with pool := mset s.pool t.node c, threads := go (.got c) }
      | some c' => { s with closed := s.closed ++ [c], threads := go (.got c') }
    | .got c =>
      -- server.go:177
      if locked s c then s else { s with threads := go (.talking c) }
    | .talking c =>
      -- server.go:178-188; nothing can be sent over a closed connection
      if ok ∧ c ∉ s.closed then { s with threads := go (.done (some c)) } else { s with threads := go .failed }
    | .failed =>
      -- pool.go:147-157: whatever connection is in the pool now
      match mget s.pool t.node with
      | none => { s with threads := go (.done none) }
      | some c => if locked s c then s else { s with pool := mdel s.pool t.node, closed := s.closed ++ [c], threads := go (.done none) }
    | .done _ => s

/-- Any interleaving. -/
def run (s : Sys) : List (Nat × Bool) → Sys
  | [] => s
  | (i, ok) :: l => run (step s i ok) l

/-- An empty pool and requests for these nodes. -/
def init (nodes : List Nat) : Sys := { pool := [], next := 0, closed := [], threads := nodes.map (fun n => ⟨n, .start⟩) }

end FcRetrieval.Pool
