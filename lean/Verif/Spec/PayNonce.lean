import Verif.Model.PayNonce
/-!
# Specification vocabulary for the numbers of chain messages
-/

namespace FcRetrieval.PayNonce
open FcRetrieval.PayLocks (Call)

/-- The call is a top-up. -/
def IsTopup (c : Call) : Prop := c = .topupNew ∨ ∃ r, c = .topupKnown r

/-- What the chain may execute of the messages handed over: no two messages of the account with the same number. -/
def ChainMay (pool executed : List (Nat × Nat)) : Prop :=
  (∀ m ∈ executed, m ∈ pool) ∧ executed.Pairwise (fun a b => a.1 ≠ b.1)

/-- The chain can execute what every one of the calls has handed over. -/
def AllCanCount (pool : List (Nat × Nat)) : Prop := ChainMay pool pool

/-- The chain's rule leaves out one of the two calls, whatever it executes. -/
def OneIsLost (pool : List (Nat × Nat)) (i j : Nat) : Prop :=
  ∀ executed, ChainMay pool executed → ∀ m ∈ executed, ∀ m' ∈ executed, m.2 = i → m'.2 = j → False

end FcRetrieval.PayNonce
