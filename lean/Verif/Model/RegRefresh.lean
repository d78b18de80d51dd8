/-!
# The channel protocol of `Refresh` and `Shutdown` in `common/pkg/fcrregistermgr/register_manager.go`

One update routine and any number of callers share one unbuffered refresh channel, used in both directions, and one unbuffered shutdown
channel.  A send and the receive that takes it are one step.  `Refresh` does the same on the gateway channel and then on the provider
channel; what is modelled is one of the two.  The lock operations are in `Model/RegLocks`, what a round does in `Model/RegMgr`.
-/

namespace FcRetrieval.RegRefresh

/-- Where the update routine is: register_manager.go:366-413 `updateGateways`, 416-460 `updateProviders`. -/
inductive Routine where
  | round (force : Bool)  -- lines 368-392
  | reply                 -- line 395
  | idle                  -- the select, lines 399-411
  | stopped               -- after line 410
  deriving DecidableEq

/-- Where a caller is. `since` and `upto` are not in the code: the number of rounds begun when the call began, and the number of rounds
ended when it returned. -/
inductive Pc where
  | out
  | asking (since : Nat)           -- Refresh, line 155
  | waiting (since : Nat)          -- Refresh, line 156
  | returned (since upto : Nat)
  | refused                        -- the manager was not started, lines 151-153
  | stopping                       -- Shutdown, line 122
  | clearing                       -- Shutdown, line 127
  deriving DecidableEq

/-- The routine, the number of rounds begun and ended, `mgr.start`, and the callers. -/
structure Sys where
  routine : Routine
  begun : Nat
  ended : Nat
  running : Bool
  callers : List Pc
  deriving DecidableEq

/-- What can happen. -/
inductive Act where
  | call (i : Nat)        -- caller `i` calls `Refresh`
  | ask (i : Nat)         -- the routine takes the request of caller `i`
  | pass (i j : Nat)      -- caller `j`, waiting for its answer, takes the request of caller `i`
  | finish                -- the routine ends its round
  | reply (j : Nat)       -- caller `j` takes the routine's answer
  | tick                  -- the timer expires
  | callStop (i : Nat)    -- caller `i` calls `Shutdown`
  | stop (i : Nat)        -- the routine takes the shutdown of caller `i`
  | clear (i : Nat)       -- caller `i` clears `mgr.start` and returns
  | start                 -- `Start`, lines 102-114
  deriving DecidableEq

/-- A caller that is not in a call. -/
def Pc.free : Pc → Bool
  | .out | .returned _ _ | .refused => true
  | _ => false

/-- One step, if possible. -/
def step (s : Sys) : Act → Option Sys
  | .call i =>
    match s.callers[i]? with
    | some p => if p.free then some { s with callers := s.callers.set i (if s.running then .asking s.begun else .refused) } else none
    | none => none
  | .ask i =>
    match s.callers[i]?, s.routine with
    | some (.asking k), .idle => some { s with routine := .round true, begun := s.begun + 1, callers := s.callers.set i (.waiting k) }
    | _, _ => none
  | .pass i j =>
    match s.callers[i]?, s.callers[j]? with
    | some (.asking k), some (.waiting l) => some { s with callers := (s.callers.set i (.waiting k)).set j (.returned l s.ended) }
    | _, _ => none
  | .finish =>
    match s.routine with
    | .round true => some { s with routine := .reply, ended := s.ended + 1 }
    | .round false => some { s with routine := .idle, ended := s.ended + 1 }
    | _ => none
  | .reply j =>
    match s.callers[j]?, s.routine with
    | some (.waiting l), .reply => some { s with routine := .idle, callers := s.callers.set j (.returned l s.ended) }
    | _, _ => none
  | .tick =>
    match s.routine with
    | .idle => some { s with routine := .round false, begun := s.begun + 1 }
    | _ => none
  | .callStop i =>
    match s.callers[i]? with
    | some p => if p.free then some { s with callers := s.callers.set i (if s.running then .stopping else .refused) } else none
    | none => none
  | .stop i =>
    match s.callers[i]?, s.routine with
    | some .stopping, .idle => some { s with routine := .stopped, callers := s.callers.set i .clearing }
    | _, _ => none
  | .clear i =>
    match s.callers[i]? with
    | some .clearing => some { s with running := false, callers := s.callers.set i .out }
    | _ => none
  | .start =>
    if s.running = false ∧ s.routine = .stopped then some { s with routine := .round false, begun := s.begun + 1, running := true } else none

/-- The steps of a schedule, if all are possible. -/
def run (s : Sys) : List Act → Option Sys
  | [] => some s
  | a :: as => (step s a).bind (fun s => run s as)

/-- register_manager.go:102-114: the manager just started, with `n` callers. -/
def init (n : Nat) : Sys := { routine := .round false, begun := 1, ended := 0, running := true, callers := List.replicate n .out }

end FcRetrieval.RegRefresh
