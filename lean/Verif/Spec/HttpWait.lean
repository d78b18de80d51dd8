import Verif.Model.HttpWait
/-!
# Specification vocabulary for calls that share one communicator
-/

namespace FcRetrieval.HttpWait

/-- Reached from a new communicator. -/
def Reachable (silent : Silent) (s : State) : Prop := ∃ now es, s = run silent (fresh now) es

/-- The call is exchanging data with its server. -/
def Talks (s : State) (i : Nat) : Prop := ∃ c start, s.calls[i]? = some c ∧ c.phase = .talking start

/-- The number of calls that returned in the span of time. -/
def returnedIn (calls : List Call) (a b : Nat) : Nat :=
  calls.countP (fun c => match c.phase with | .done _ f => decide (a ≤ f ∧ f ≤ b) | _ => false)

/-- The number of calls that have not returned. -/
def open_ (s : State) : Nat := s.calls.countP (fun c => match c.phase with | .done _ _ => false | _ => true)

end FcRetrieval.HttpWait
