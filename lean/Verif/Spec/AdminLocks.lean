import Verif.Model.AdminLocks
/-!
# Specification vocabulary for administrators whose calls overlap
-/

namespace FcRetrieval.AdminLocks
open FcRetrieval.RWLock

/-- The call talks to a node. -/
def Call.sends : Call → Bool
  | .initialise | .initialiseFails | .ask | .features => true
  | .notSent | .refused | .featuresNotSent => false

/-- The call enters a node in the book of the nodes in use, or may do so. -/
def Call.enters : Call → Bool
  | .initialise | .features | .featuresNotSent => true
  | .initialiseFails | .notSent | .ask | .refused => false

/-- The call looks a node up in the book. -/
def Call.looksUp : Call → Bool
  | .ask | .refused => true
  | .initialise | .initialiseFails | .notSent | .features | .featuresNotSent => false

/-- The calls may get into each other's way: both talk to a node, or one enters a node in the book and the other uses the book. -/
def Clash (a b : Call) : Prop :=
  (a.sends = true ∧ b.sends = true) ∨ (a.enters = true ∧ (b.enters = true ∨ b.looksUp = true)) ∨ (a.looksUp = true ∧ b.enters = true)

/-- The call returns without sending anything and without using the book: the message could not be made. -/
def Call.idle (k : Call) : Bool := !k.sends && !k.enters && !k.looksUp

/-- Every thread but the first has finished, and holds nothing. -/
def OthersDone (s : List (Thread Lock)) : Prop := ∀ j t, s[j + 1]? = some t → t.todo = [] ∧ t.held = []

/-- However long the first thread rests where it is, the others can finish, they do finish when they go on as long as possible, and that
takes a bounded number of steps. -/
def OthersComplete (s : List (Thread Lock)) : Prop :=
  ∃ bound, ∀ sched s', 0 ∉ sched → run s sched = some s' →
    sched.length ≤ bound ∧ ((∀ i, i ≠ 0 → step s' i = none) → OthersDone s') ∧
    ∃ sched' s'', 0 ∉ sched' ∧ run s' sched' = some s'' ∧ OthersDone s''

/-- As long as the first thread rests where it is, the thread `j` does not finish. -/
def HeldUp (s : List (Thread Lock)) (j : Nat) : Prop :=
  ∀ sched s', 0 ∉ sched → run s sched = some s' → ∃ t, s'[j]? = some t ∧ t.todo ≠ []

end FcRetrieval.AdminLocks
