import Verif.Model.PayLocks
/-!
# Specification vocabulary for payments that overlap
-/

namespace FcRetrieval.PayLocks
open FcRetrieval.RWLock

/-- The call is one of the paying side. -/
def Call.pays : Call → Bool
  | .topupNew | .topupKnown _ | .payUnknown | .payKnown _ => true
  | .receiveNew | .receiveKnown _ => false

/-- The call enters a new channel in the books. -/
def Call.opens : Call → Bool
  | .topupNew | .receiveNew => true
  | _ => false

/-- The channel that the call works on, if it found one. -/
def Call.channel : Call → Option Nat
  | .topupKnown r | .payKnown r => some r
  | .receiveKnown c => some c
  | _ => none

/-- The calls may get into each other's way: both pay or both receive, and one of them opens a channel or both work on the same one. -/
def Clash (a b : Call) : Prop := a.pays = b.pays ∧ (a.opens = true ∨ b.opens = true ∨ (a.channel ≠ none ∧ a.channel = b.channel))

/-- Every thread but the first has finished, and holds nothing. -/
def OthersDone (s : List (Thread Lock)) : Prop := ∀ j t, s[j + 1]? = some t → t.todo = [] ∧ t.held = []

/-- However long the first thread rests where it is, the others can finish, they do finish when they go on as long as possible, and that
takes a bounded number of steps. -/
def OthersComplete (s : List (Thread Lock)) : Prop :=
  ∃ bound, ∀ sched s', 0 ∉ sched → run s sched = some s' →
    sched.length ≤ bound ∧ ((∀ i, i ≠ 0 → step s' i = none) → OthersDone s') ∧
    ∃ sched' s'', 0 ∉ sched' ∧ run s' sched' = some s'' ∧ OthersDone s''

/-- As long as the first thread rests where it is, the thread `j` does not finish. -/
def HeldUp (s : List (Thread Lock)) (j : Nat) : Prop :=
  ∀ sched s', 0 ∉ sched → run s sched = some s' → ∃ t, s'[j]? = some t ∧ t.todo ≠ []

end FcRetrieval.PayLocks
