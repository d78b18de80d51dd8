import Verif.Model.RWLock
/-!
# Specification vocabulary for threads that share reader/writer locks
-/

namespace FcRetrieval.RWLock

variable {L : Type} [DecidableEq L]

/-- Every thread has finished and holds nothing. -/
def Done (s : List (Thread L)) : Prop := ∀ t ∈ s, t.todo = [] ∧ t.held = []

/-- No thread can make a step. -/
def Stuck (s : List (Thread L)) : Prop := ∀ i, step s i = none

/-- Whatever has happened so far, the threads can finish, they do finish when they go on as long as possible, and that takes a bounded
number of steps. -/
def AlwaysCompletes (s : List (Thread L)) : Prop :=
  ∃ bound, ∀ sched s', run s sched = some s' →
    sched.length ≤ bound ∧ (Stuck s' → Done s') ∧ ∃ sched' s'', run s' sched' = some s'' ∧ Done s''

/-- The discipline under which locks are safe: `free` locks are never taken for writing; every other lock is taken only while the locks
held (other than free ones) come before it in the order; what is taken is released. -/
def Disciplined (rank : L → Nat) (free : L → Bool) : List (L × Bool) → List (Op L) → Bool
  | held, [] => held.isEmpty
  | held, .work :: r => Disciplined rank free held r
  | held, .runlock l :: r => held.contains (l, false) && Disciplined rank free (held.erase (l, false)) r
  | held, .unlock l :: r => held.contains (l, true) && Disciplined rank free (held.erase (l, true)) r
  | held, .rlock l :: r =>
    (free l || held.all (fun h => free h.1 || decide (rank h.1 < rank l))) && Disciplined rank free ((l, false) :: held) r
  | held, .lock l :: r =>
    !free l && held.all (fun h => free h.1 || decide (rank h.1 < rank l)) && Disciplined rank free ((l, true) :: held) r

/-- A writer keeps every other thread out: what the reader/writer locks of Go promise, and what makes "under the lock" meaningful. -/
def Exclusive (s : List (Thread L)) : Prop :=
  ∀ (i j : Nat) (t u : Thread L) (l : L), s[i]? = some t → s[j]? = some u → i ≠ j → t.writes l = true → u.holds l = false

end FcRetrieval.RWLock
