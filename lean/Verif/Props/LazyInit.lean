import Verif.Lemmas.LazyInit
/-!
# C141, C160: the payment manager is set up once
-/

set_option linter.unusedSimpArgs false

namespace FcRetrieval.LazyInit

/-- C141.  However many calls of `PaymentMgr` are under way and in whatever order their steps come, at most one manager is made, and all the calls that
return a manager return the same one. -/
theorem C141_one (good : Bool) (n : Nat) (s : List Nat) :
    (run good (newWorld n) s).made ≤ 1 ∧
    ∀ i j a b : Nat, (run good (newWorld n) s).calls[i]? = some (.done (some a)) → (run good (newWorld n) s).calls[j]? = some (.done (some b)) → a = b := by
  have h := inv_reach good n s
  constructor
  · cases h.field with
    | inl f => cases h.made f with
      | inl z => omega
      | inr z => omega
    | inr z => omega
  · intro i j a b hi hj
    have h1 := h.pc i _ hi
    have h2 := h.pc j _ hj
    simp only [PcOk] at h1 h2
    split at h1
    · next g =>
      rw [if_pos g] at h2
      exact (Option.some.inj h1.1).trans (Option.some.inj h2.1).symm
    · cases h1

/-- C141.  A call returns nil exactly when the settings give no manager. -/
theorem C141_nil (good : Bool) (n : Nat) (s : List Nat) (i : Nat) (r : Option Nat)
    (hr : (run good (newWorld n) s).calls[i]? = some (.done r)) : r = none ↔ good = false := by
  have h := (inv_reach good n s).pc i _ hr
  simp only [PcOk] at h
  split at h
  · next g => simp [h.1, g]
  · next g => simpa [h] using g

/-- C141.  No order of steps leads to a state from which the calls cannot all return: `7 n` further steps, well chosen, suffice; and as long
as one of them has not returned, some call has a step to take. -/
theorem C141_returns (good : Bool) (n : Nat) (s : List Nat) :
    (∃ t : List Nat, t.length ≤ 7 * n ∧
      ∀ i < n, ∃ r, (run good (newWorld n) (s ++ t)).calls[i]? = some (.done r)) ∧
    ∀ i < n, (∀ r, (run good (newWorld n) s).calls[i]? ≠ some (.done r)) →
      ∃ j, step good (run good (newWorld n) s) j ≠ run good (newWorld n) s := by
  have h := inv_reach good n s
  have hr (t : List Nat) : run good (newWorld n) (s ++ t) = run good (run good (newWorld n) s) t := by simp [run]
  constructor
  · have hk : todo (run good (newWorld n) s) ≤ 7 * n := by rw [← todo_new n]; exact todo_run good _ s
    have ⟨t, ht, hall⟩ := finish (7 * n) h hk
    refine ⟨t, ht, ?_⟩
    intro i hi
    rw [hr]
    have hl := (inv_run h t).len
    have hx : (run good (run good (newWorld n) s) t).calls[i]? = some ((run good (run good (newWorld n) s) t).calls[i]'(by omega)) := by simp
    have ⟨r, e⟩ := hall i _ hx
    exact ⟨r, by rw [hx, e]⟩
  · intro i hi hd
    have hx : (run good (newWorld n) s).calls[i]? = some ((run good (newWorld n) s).calls[i]'(by rw [h.len]; exact hi)) := by simp
    have ⟨j, hj⟩ := someone_moves h i hx (fun r e => hd r (by rw [hx, e]))
    refine ⟨j, fun e => ?_⟩
    rw [e] at hj
    omega

/-- Three calls at once: two find no manager, the second waits for the lock, the third comes late; all return the one manager. -/
example : run true (newWorld 3) [0, 1, 0, 1, 0, 0, 0, 2, 0, 0, 1, 1, 1, 1, 2] =
    ⟨some 0, none, 1, [.done (some 0), .done (some 0), .done (some 0)]⟩ := by decide

/-- With a bad wallet key every call returns nil. -/
example : run false (newWorld 2) [0, 1, 0, 0, 0, 0, 1, 1, 1, 1] = ⟨none, none, 0, [.done none, .done none]⟩ := by decide

/-- A state in which one call is about to write the field and another one to read it, with nothing between them to order the two: a data race. -/
def Race (w : World) : Prop :=
  ∃ (i j m : Nat), i ≠ j ∧ w.calls[i]? = some (.store m) ∧
    (w.calls[j]? = some .look ∨ w.calls[j]? = some .again ∨ w.calls[j]? = some .read ∨ w.calls[j]? = some .readFree ∨ ∃ k, w.calls[j]? = some (.store k))

/-- C160.  With good settings, any number of calls greater than one and any two of them: there is an order of steps that brings the two to a data race. -/
theorem C160_refuted (n i j : Nat) (hi : i < n) (hj : j < n) (hne : i ≠ j) :
    ∃ s m, (run true (newWorld n) s).calls[i]? = some (.store m) ∧ (run true (newWorld n) s).calls[j]? = some .look := by
  refine ⟨[i, i, i, i], 0, ?_, ?_⟩
  · simp [run, step, newWorld, hi]
  · simp [run, step, newWorld, hi, hj, hne]

/-- C160, what holds: a race is only ever with the first, unlocked look at the field; whatever reads or writes the field after that look is ordered by the
lock or comes after the only write. -/
theorem C160_partial (good : Bool) (n : Nat) (s : List Nat) (i j m : Nat) (hne : i ≠ j)
    (hi : (run good (newWorld n) s).calls[i]? = some (.store m)) :
    (run good (newWorld n) s).calls[j]? ≠ some .again ∧ (run good (newWorld n) s).calls[j]? ≠ some .read ∧
    (run good (newWorld n) s).calls[j]? ≠ some .readFree ∧ ∀ k, (run good (newWorld n) s).calls[j]? ≠ some (.store k) := by
  have h := inv_reach good n s
  have mine := (h.crit i _ hi).1 rfl
  have no (p : Pc) (hp : (run good (newWorld n) s).calls[j]? = some p) (hc : critical p = true) : False := by
    have := (h.crit j p hp).1 hc
    rw [mine] at this
    exact hne (Option.some.inj this)
  refine ⟨fun e => no _ e rfl, fun e => no _ e rfl, ?_, fun k e => no _ e rfl⟩
  intro e
  have h1 : _ = some 0 := h.pc j _ e
  have h2 := (h.pc i _ hi).1
  rw [h1] at h2
  cases h2

/-- The race of two calls. -/
example : Race (run true (newWorld 2) [0, 0, 0, 0]) := ⟨0, 1, 0, by decide, by decide, .inl (by decide)⟩

end FcRetrieval.LazyInit
