import Verif.Model.Identity
/-!
# What is said about the identity in messages
-/

namespace FcRetrieval.Identity

/-- The request is in the middle of writing the identity. -/
def Thread.writing : Thread → Bool
  | .setter _ k => k == 1 || k == 2
  | _ => false

/-- The request is in the middle of reading the identity. -/
def Thread.reading : Thread → Bool
  | .named _ | .keyed _ _ => true
  | _ => false

/-- The request sets the identity. -/
def Thread.sets : Thread → Bool
  | .setter _ _ => true
  | _ => false

/-- Request `i` gets its turn here without meeting another one half-way: if it sets the identity, no other request is in the middle
of writing or reading it; otherwise none is in the middle of writing it.  This is what a readers–writer lock held over the three
accesses would enforce. -/
def Apart (s : State) (i : Nat) : Prop :=
  ∀ (j : Nat) (t u : Thread), s.threads[i]? = some t → s.threads[j]? = some u → j ≠ i →
    u.writing = false ∧ (t.sets = true → u.reading = false)

/-- In this interleaving no request meets another one half-way. -/
def AllApart (s : State) : List Nat → Prop
  | [] => True
  | i :: l => Apart s i ∧ AllApart (step s i) l

/-- A request that has just arrived: it sets an identity, or is one to the admin interface, or another one. -/
def Thread.arrived : Thread → Prop
  | .setter _ 0 | .admin | .start => True
  | _ => False

end FcRetrieval.Identity
