import Verif.Model.RWLock
/-!
# The lock operations of `common/pkg/fcrpaymentmgr/payment_manager.go`

For each call, the sequence of its lock operations, for each way through it.  Which way a call takes (whether the recipient or the
channel is known when it looks) is a parameter here, so that more combinations are possible than in the program.  Calls that end in
an error before the first lock operation (117-128, 275-303) have no lock operations; deferred releases run on every return, so an error
after a lock operation releases the same locks in the same order.  Requests to the Lotus node, and the wait for a receipt (467-483), are
`work`: nothing limits how long they take.
-/

namespace FcRetrieval.PayLocks
open FcRetrieval.RWLock

/-- payment_manager.go:47-62: the lock of the outbound channels and of each of them (by recipient), the lock of the inbound channels
and of each of them (by channel address). -/
inductive Lock where
  | outbound
  | outCh (recipient : Nat)
  | inbound
  | inCh (channel : Nat)
  deriving DecidableEq

/-- The calls, by the way they take. -/
inductive Call where
  | topupNew
  | topupKnown (recipient : Nat)
  | payUnknown
  | payKnown (recipient : Nat)
  | receiveNew
  | receiveKnown (channel : Nat)
  deriving DecidableEq

/-- payment_manager.go:131-138, 139-172 `Topup` to a recipient without channel: the lock is released and taken again for writing; the
channel is created, and its receipt awaited, under the lock. -/
def topupNew : List (Op Lock) := [.rlock .outbound, .work, .runlock .outbound, .lock .outbound, .work, .unlock .outbound]

/-- payment_manager.go:131-132, 173-203 `Topup` to a recipient with a channel: both locks are held until the receipt is there. -/
def topupKnown (r : Nat) : List (Op Lock) :=
  [.rlock .outbound, .work, .lock (.outCh r), .work, .unlock (.outCh r), .runlock .outbound]

/-- payment_manager.go:215-221 `Pay` to a recipient without channel. -/
def payUnknown : List (Op Lock) := [.rlock .outbound, .work, .runlock .outbound]

/-- payment_manager.go:215-270 `Pay` to a recipient with a channel. -/
def payKnown (r : Nat) : List (Op Lock) :=
  [.rlock .outbound, .work, .lock (.outCh r), .work, .unlock (.outCh r), .runlock .outbound]

/-- payment_manager.go:292-401 `Receive` of the first voucher of a channel: the accounts of the channel's state are asked for (344, 356)
under the write lock. -/
def receiveNew : List (Op Lock) := [.work, .rlock .inbound, .work, .runlock .inbound, .lock .inbound, .work, .unlock .inbound]

/-- payment_manager.go:292-401 `Receive` of a further voucher of a channel. -/
def receiveKnown (c : Nat) : List (Op Lock) :=
  [.work, .rlock .inbound, .work, .lock (.inCh c), .work, .unlock (.inCh c), .runlock .inbound]

/-- The lock operations of a call. -/
def Call.ops : Call → List (Op Lock)
  | .topupNew => PayLocks.topupNew
  | .topupKnown r => PayLocks.topupKnown r
  | .payUnknown => PayLocks.payUnknown
  | .payKnown r => PayLocks.payKnown r
  | .receiveNew => PayLocks.receiveNew
  | .receiveKnown c => PayLocks.receiveKnown c

/-- Threads that make these calls one after the other. -/
def threads (cs : List (List Call)) : List (Thread Lock) := cs.map (fun c => begin_ (c.flatMap Call.ops))

end FcRetrieval.PayLocks
