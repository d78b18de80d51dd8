import Verif.Model.RegRefresh
/-!
# What a caller of `Refresh` relies on
-/

namespace FcRetrieval.RegRefresh

/-- The call of a caller returned only after a round that began after the call had ended. Rounds are numbered in order; `since` rounds had
begun when the call began, `upto` had ended when it returned. -/
def Refreshed : Pc → Prop
  | .returned since upto => since < upto
  | _ => True

/-- A caller inside `Refresh`. -/
def Pc.active : Pc → Bool
  | .asking _ | .waiting _ => true
  | _ => false

/-- A caller inside `Shutdown`, before the routine has taken it. -/
def Pc.stops : Pc → Bool
  | .stopping => true
  | _ => false

/-- At most one caller is inside `Refresh`. -/
def Solo (s : Sys) : Prop := ∀ (i j : Nat) (p q : Pc), s.callers[i]? = some p → s.callers[j]? = some q → p.active = true → q.active = true → i = j

/-- The states passed through. -/
def visits (s : Sys) : List Act → List Sys
  | [] => [s]
  | a :: as =>
    match step s a with
    | none => [s]
    | some t => s :: visits t as

/-- Nobody is inside `Refresh`. -/
def Quiet (s : Sys) : Prop := ∀ p ∈ s.callers, p.active = false

end FcRetrieval.RegRefresh
