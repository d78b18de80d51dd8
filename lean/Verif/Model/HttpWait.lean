import Verif.Model.Go
/-!
# Calls that share one `HttpCommunicator` (`common/pkg/request/request.go`)

`GetJSON`, `SendJSON`, `SendMessage` and `Delete` hold the mutex of the communicator from their first line until they return, so over the
whole exchange with the server.  One client library, one administration library and one register manager have one communicator each
(client_api.go:91-95, gateway-admin admin_api.go:69-73, provider-admin admin_api.go:74-78, register_manager.go:82).

Time is counted in seconds.  The time that the computer itself needs is not counted: the clock does not advance while the mutex is free and
somebody waits for it.
-/

namespace FcRetrieval.HttpWait

/-- request.go:53: `http.Client{Timeout: 180 * time.Second}`; the limit includes the reading of the body. -/
def limit : Nat := 180

/-- Where a call is, with the times at which it was made, was given the mutex, and returned. -/
inductive Phase where
  | waiting
  | talking (start : Nat)
  | done (start finish : Nat)
  deriving DecidableEq, Repr

/-- A call: the server it is for, when it was made, and where it is. -/
structure Call where
  server : Nat
  made : Nat
  phase : Phase
  deriving DecidableEq, Repr

/-- The clock, who holds the mutex, and the calls in the order in which they were made. -/
structure State where
  clock : Nat
  lock : Option Nat
  calls : List Call
  deriving DecidableEq, Repr

/-- What happens next: a goroutine makes a call; call `i` is given the mutex; call `i` returns, because the server has answered, the connection has failed or
the time is up; a second passes. -/
inductive Event where
  | call (server : Nat)
  | acquire (i : Nat)
  | return_ (i : Nat)
  | tick
  deriving DecidableEq, Repr

/-- The exchange that began at this time has to end now (the `Timeout` of the client). -/
def overdue (clock : Nat) (c : Call) : Bool :=
  match c.phase with
  | .talking start => decide (start + limit ≤ clock)
  | _ => false

/-- Waiting for the mutex. -/
def Call.waits (c : Call) : Bool := decide (c.phase = .waiting)

/-- A server that takes requests and never answers; what comes from such a server is only the end of the time.  Other servers answer whenever they like. -/
abbrev Silent := Nat → Bool

/-- One event.  What cannot happen now changes nothing.  request.go:60-61, 80-81, 101-102, 139-140 (`c.Lock()`, `defer c.Unlock()`). -/
def step (silent : Silent) (s : State) : Event → State
  | .call server => { s with calls := s.calls ++ [⟨server, s.clock, .waiting⟩] }
  | .acquire i =>
    match s.calls[i]? with
    | none => s
    | some c =>
      if c.phase = .waiting ∧ s.lock = none then
        { s with lock := some i, calls := s.calls.set i { c with phase := .talking s.clock } }
      else s
  | .return_ i =>
    match s.calls[i]? with
    | none => s
    | some c =>
      match c.phase with
      | .talking start =>
        if silent c.server = true ∧ s.clock < start + limit then s
        else { s with lock := none, calls := s.calls.set i { c with phase := .done start s.clock } }
      | _ => s
  | .tick =>
    if s.calls.any (overdue s.clock) = true then s
    else if s.lock = none ∧ s.calls.any Call.waits = true then s
    else { s with clock := s.clock + 1 }

/-- Any sequence of events. -/
def run (silent : Silent) (s : State) : List Event → State
  | [] => s
  | e :: es => run silent (step silent s e) es

/-- request.go:51-56 `NewHttpCommunicator`. -/
def fresh (now : Nat) : State := ⟨now, none, []⟩

end FcRetrieval.HttpWait
