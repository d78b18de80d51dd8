import Verif.Model.PayLocks
/-!
# The numbers of the chain messages that overlapping top-ups send

`Topup` asks the Lotus node for the number of the account's next message (payment_manager.go:425-430), fills the message and signs it,
and hands it to the node (152, 191).  Between the question and the handing over other top-ups of the same account can come in, unless a
lock keeps them out.  Everything else about the messages is left out here: recipient, amount, gas.
-/

namespace FcRetrieval.PayNonce
open FcRetrieval.PayLocks (Call)

/-- Where a top-up is: not under its locks yet (payment_manager.go:117-132); under them (138 or 131 and 177); with the number it was told
(425-430); waiting for the receipt of the message that it has handed over with this number (157, 196); back at its caller, having handed
over a message with this number. -/
inductive Pc where
  | outside
  | inside
  | told (n : Nat)
  | sent (n : Nat)
  | back (n : Nat)
  deriving DecidableEq

/-- The call is under its locks. -/
def Pc.locked : Pc → Bool
  | .outside | .back _ => false
  | .inside | .told _ | .sent _ => true

/-- payment_manager.go:136-138, 175-178: a top-up of a new recipient holds the outbound lock for writing, one of a known recipient for
reading, and its channel's lock.  So two of them cannot be under their locks at the same time if one is to a new recipient or both are to
the same one (`C181_completes`, `Exclusive`). -/
def excludes : Call → Call → Bool
  | .topupKnown a, .topupKnown b => a == b
  | _, _ => true

/-- The node's next number for the account, the messages handed over (number, which call), and where each call is. -/
structure St where
  next : Nat
  pool : List (Nat × Nat)
  pcs : List Pc
  deriving DecidableEq

/-- One step of call `i`.  The node says its next number; a message that is handed over moves it past the message's number, as the
`MpoolGetNonce` of Lotus does.  A node that refuses a second message of the same number is a node in which the second `told` step ends in
an error; here it takes the message, and the chain decides (`Spec/PayNonce`). -/
def step (calls : List Call) (s : St) (i : Nat) : Option St :=
  match calls[i]?, s.pcs[i]? with
  | some c, some .outside =>
    if (List.range calls.length).any (fun j => (s.pcs[j]?.getD .outside).locked && excludes c (calls[j]?.getD .topupNew)) then none
    else some { s with pcs := s.pcs.set i .inside }
  | some _, some .inside => some { s with pcs := s.pcs.set i (.told s.next) }
  | some _, some (.told n) => some { next := max s.next (n + 1), pool := s.pool ++ [(n, i)], pcs := s.pcs.set i (.sent n) }
  | some _, some (.sent n) => some { s with pcs := s.pcs.set i (.back n) }
  | _, _ => none

/-- The steps of a schedule, if all are possible. -/
def run (calls : List Call) (s : St) : List Nat → Option St
  | [] => some s
  | i :: is => (step calls s i).bind (fun s => run calls s is)

/-- All calls before their first step, at a node that would say `next`. -/
def begin_ (calls : List Call) (next : Nat) : St := ⟨next, [], List.replicate calls.length .outside⟩

end FcRetrieval.PayNonce
