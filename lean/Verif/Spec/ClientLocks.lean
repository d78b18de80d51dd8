import Verif.Model.ClientLocks
/-!
# Specification vocabulary for a client whose gateways, or whose chain, are slow
-/

namespace FcRetrieval.ClientLocks
open FcRetrieval.RWLock

/-- The call talks to a gateway or a provider. -/
def Call.talks : Call → Bool
  | .activate ways => ways.contains .fails || ways.contains .entered
  | .search steps => steps.contains .talk
  | .proof => true
  | .findGateways | .add _ | .remove _ | .removeAll | .inUse | .deactivate | .activeOnes | .proofRefused => false

/-- The call pays or may pay. -/
def Call.pays : Call → Bool
  | .search steps => steps.any (· ≠ .talk)
  | .findGateways | .add _ | .remove _ | .removeAll | .inUse | .activate _ | .deactivate | .activeOnes | .proof | .proofRefused => false

/-- The call changes the list of the gateways in use. -/
def Call.changesUse : Call → Bool
  | .add ways => ways.contains .entered
  | .remove _ | .removeAll => true
  | .findGateways | .inUse | .activate _ | .deactivate | .activeOnes | .search _ | .proof | .proofRefused => false

/-- The call looks at the list of the gateways in use. -/
def Call.looksUse : Call → Bool
  | .add ways => !ways.isEmpty
  | .inUse => true
  | .activate ways => ways.any (· ≠ .known)
  | .findGateways | .remove _ | .removeAll | .deactivate | .activeOnes | .search _ | .proof | .proofRefused => false

/-- The call changes the list of the active gateways. -/
def Call.changesActive : Call → Bool
  | .remove n => decide (0 < n)
  | .removeAll | .deactivate => true
  | .activate ways => ways.contains .entered
  | .findGateways | .add _ | .inUse | .activeOnes | .search _ | .proof | .proofRefused => false

/-- The call looks at the list of the active gateways. -/
def Call.looksActive : Call → Bool
  | .activate ways => !ways.isEmpty
  | .activeOnes | .search _ => true
  | .findGateways | .add _ | .remove _ | .removeAll | .inUse | .deactivate | .proof | .proofRefused => false

/-- The call uses one of the two lists. -/
def Call.usesLists (k : Call) : Bool := k.changesUse || k.looksUse || k.changesActive || k.looksActive

/-- The calls may get into each other's way: both talk, both pay, or one changes a list that the other uses. -/
def Clash (a b : Call) : Prop :=
  (a.talks = true ∧ b.talks = true) ∨ (a.pays = true ∧ b.pays = true) ∨
  (a.changesUse = true ∧ (b.changesUse = true ∨ b.looksUse = true)) ∨ (a.looksUse = true ∧ b.changesUse = true) ∨
  (a.changesActive = true ∧ (b.changesActive = true ∨ b.looksActive = true)) ∨ (a.looksActive = true ∧ b.changesActive = true)

/-- The call talks to gateways in order to activate them, or to a provider for a proof. -/
def Call.greets : Call → Bool
  | .activate _ | .proof => true
  | .findGateways | .add _ | .remove _ | .removeAll | .inUse | .deactivate | .activeOnes | .search _ | .proofRefused => false

/-- The thread is in an exchange with a gateway or provider. -/
def InExchange (t : Thread Lock) : Prop := t.writes .wire = true

/-- Every thread but the first has finished, and holds nothing. -/
def OthersDone (s : List (Thread Lock)) : Prop := ∀ j t, s[j + 1]? = some t → t.todo = [] ∧ t.held = []

/-- However long the first thread rests where it is, the others can finish, they do finish when they go on as long as possible, and that takes a
bounded number of steps. -/
def OthersComplete (s : List (Thread Lock)) : Prop :=
  ∃ bound, ∀ sched s', 0 ∉ sched → run s sched = some s' →
    sched.length ≤ bound ∧ ((∀ i, i ≠ 0 → step s' i = none) → OthersDone s') ∧
    ∃ sched' s'', 0 ∉ sched' ∧ run s' sched' = some s'' ∧ OthersDone s''

/-- As long as the first thread rests where it is, the thread `j` does not finish. -/
def HeldUp (s : List (Thread Lock)) (j : Nat) : Prop :=
  ∀ sched s', 0 ∉ sched → run s sched = some s' → ∃ t, s'[j]? = some t ∧ t.todo ≠ []

end FcRetrieval.ClientLocks
