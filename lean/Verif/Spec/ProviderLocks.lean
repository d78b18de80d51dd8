import Verif.Model.ProviderLocks
/-!
# Specification vocabulary for a provider whose peers are slow
-/

namespace FcRetrieval.ProviderLocks
open FcRetrieval.RWLock

/-- The request begins with an exchange with a gateway. -/
def Request.talks : Request → Bool
  | .publishDht _ | .publishGroup | .publishFails | .list _ => true
  | .published | .ask => false

/-- The request uses the record of offers. -/
def Request.usesOffers : Request → Bool
  | .publishDht n => decide (0 < n)
  | .publishGroup | .published => true
  | .publishFails | .list _ | .ask => false

/-- The request records acknowledgements. -/
def Request.acknowledges : Request → Bool
  | .publishDht n | .list n => decide (0 < n)
  | .publishGroup | .publishFails | .published | .ask => false

/-- The request reads acknowledgements. -/
def Request.inquires (r : Request) : Bool := r = .ask

/-- The requests may get into each other's way: both use the record of offers, or one records acknowledgements and the other records or reads them. -/
def Clash (a b : Request) : Prop :=
  (a.usesOffers = true ∧ b.usesOffers = true) ∨ (a.acknowledges = true ∧ (b.acknowledges = true ∨ b.inquires = true)) ∨
    (a.inquires = true ∧ b.acknowledges = true)

/-- The thread waits for a gateway: it is at the beginning of a request that talks to one. -/
def AtGateway (t : Thread Lock) : Prop := ∃ (r : Request) (rs : List Request), r.talks = true ∧ t.todo = r.ops ++ rs.flatMap Request.ops

/-- Every thread but the first has finished, and holds nothing. -/
def OthersDone (s : List (Thread Lock)) : Prop := ∀ j t, s[j + 1]? = some t → t.todo = [] ∧ t.held = []

/-- However long the first thread rests where it is, the others can finish, they do finish when they go on as long as possible, and that takes a
bounded number of steps. -/
def OthersComplete (s : List (Thread Lock)) : Prop :=
  ∃ bound, ∀ sched s', 0 ∉ sched → run s sched = some s' →
    sched.length ≤ bound ∧ ((∀ i, i ≠ 0 → step s' i = none) → OthersDone s') ∧
    ∃ sched' s'', 0 ∉ sched' ∧ run s' sched' = some s'' ∧ OthersDone s''

/-- As long as the first thread rests where it is, the thread `j` does not finish. -/
def HeldUp (s : List (Thread Lock)) (j : Nat) : Prop :=
  ∀ sched s', 0 ∉ sched → run s sched = some s' → ∃ t, s'[j]? = some t ∧ t.todo ≠ []

end FcRetrieval.ProviderLocks
