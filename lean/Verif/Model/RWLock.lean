/-!
# Model of Go's `sync.RWMutex` shared by threads

A thread is the list of lock operations it still has to do.  As in Go, a writer first announces itself, which keeps new readers and
other writers out, and takes the lock when no reader is left; and a lock is not re-entrant, also not for readers.
Go counts holders without knowing who they are; here each thread records what it holds, so an unlock that Go reports as a
fatal error ("unlock of unlocked RWMutex") is a step that is not possible.  What a thread does between lock operations is `work`.
-/

namespace FcRetrieval.RWLock

/-- One lock operation on a lock of type `L`. -/
inductive Op (L : Type) where
  | rlock (l : L)
  | runlock (l : L)
  | lock (l : L)
  | unlock (l : L)
  | work
  deriving DecidableEq

/-- A thread: what it has to do, what it holds (`true` = for writing), and whether it has announced the write lock it waits for. -/
structure Thread (L : Type) where
  todo : List (Op L)
  held : List (L × Bool)
  waiting : Bool
  deriving DecidableEq

variable {L : Type} [DecidableEq L]

/-- The thread has announced that it wants to write under `l`. -/
def Thread.announced (t : Thread L) (l : L) : Bool := t.waiting && t.todo.head? == some (.lock l)

/-- The thread holds `l` for writing. -/
def Thread.writes (t : Thread L) (l : L) : Bool := t.held.contains (l, true)

/-- The thread holds `l`. -/
def Thread.holds (t : Thread L) (l : L) : Bool := t.held.contains (l, true) || t.held.contains (l, false)

/-- One step of thread `i`, if possible. -/
def step (s : List (Thread L)) (i : Nat) : Option (List (Thread L)) :=
  match s[i]? with
  | none => none
  | some t =>
    match t.todo with
    | [] => none
    | .work :: rest => some (s.set i { t with todo := rest })
    | .runlock l :: rest => if t.held.contains (l, false) then some (s.set i { t with todo := rest, held := t.held.erase (l, false) }) else none
    | .unlock l :: rest => if t.held.contains (l, true) then some (s.set i { t with todo := rest, held := t.held.erase (l, true) }) else none
    | .rlock l :: rest =>
      if s.any (fun u => u.writes l || u.announced l) then none
      else some (s.set i { t with todo := rest, held := (l, false) :: t.held })
    | .lock l :: rest =>
      if t.waiting then
        if s.any (fun u => u.holds l) then none
        else some (s.set i { todo := rest, held := (l, true) :: t.held, waiting := false })
      else if s.any (fun u => u.writes l || u.announced l) then none
      else some (s.set i { t with waiting := true })

/-- The steps of a schedule, if all are possible. -/
def run (s : List (Thread L)) : List Nat → Option (List (Thread L))
  | [] => some s
  | i :: is => (step s i).bind (fun s => run s is)

/-- A thread about to make these operations. -/
def begin_ (ops : List (Op L)) : Thread L := { todo := ops, held := [], waiting := false }

end FcRetrieval.RWLock
