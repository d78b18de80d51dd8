import Verif.Model.Go
/-!
# Model of how the Go client gets its payment manager (`client/pkg/fcrclient/filecoin_retrieval_client.go:78-94`)

Any number of calls of `PaymentMgr` at once.  One step of one call is one read or write of the field, one operation on the lock, or the making of a
manager; a schedule says whose step is next.  Simplification: reads and writes are atomic and seen in the order they happen (the Go memory model
promises that only to programs without data races).
-/

namespace FcRetrieval.LazyInit

/-- Where a call stands: what it does next, or what it has returned.  A manager is named by the number of managers made before it. -/
inductive Pc where
  /-- filecoin_retrieval_client.go:80, the field is read without the lock. -/
  | look
  /-- :81. -/
  | lock
  /-- :83, the field is read with the lock. -/
  | again
  /-- :84 `NewFCRPaymentMgr`. -/
  | make
  /-- :89. -/
  | store (m : Nat)
  /-- :93 with the lock. -/
  | read
  /-- :93 without the lock. -/
  | readFree
  /-- :82, the deferred call, with the value to return. -/
  | unlock (r : Option Nat)
  | done (r : Option Nat)
deriving DecidableEq

/-- The field `paymentMgr`, which call holds `paymentMgrLock`, how many managers have been made, and the calls. -/
structure World where
  field : Option Nat
  held : Option Nat
  made : Nat
  calls : List Pc
deriving DecidableEq

/-- filecoin_retrieval_client.go:64-76: a new client has no manager; `n` calls of `PaymentMgr` will be made. -/
def newWorld (n : Nat) : World := ⟨none, none, 0, List.replicate n .look⟩

/-- One step of call `i`; it stays where it is while the lock is taken.  `good` says whether the settings give a manager (:84-88). -/
def step (good : Bool) (w : World) (i : Nat) : World :=
  match w.calls[i]? with
  | none => w
  | some .look => { w with calls := w.calls.set i (if w.field = none then .lock else .readFree) }
  | some .lock => if w.held = none then { w with held := some i, calls := w.calls.set i .again } else w
  | some .again => { w with calls := w.calls.set i (if w.field = none then .make else .read) }
  | some .make =>
    if good then { w with made := w.made + 1, calls := w.calls.set i (.store w.made) }
    else { w with calls := w.calls.set i (.unlock none) }
  | some (.store m) => { w with field := some m, calls := w.calls.set i .read }
  | some .read => { w with calls := w.calls.set i (.unlock w.field) }
  | some .readFree => { w with calls := w.calls.set i (.done w.field) }
  | some (.unlock r) => { w with held := none, calls := w.calls.set i (.done r) }
  | some (.done _) => w

/-- A schedule. -/
def run (good : Bool) (w : World) (s : List Nat) : World := s.foldl (step good) w

end FcRetrieval.LazyInit
