import Verif.Spec.RegRefresh
/-!
# Lemmas for `Model/RegRefresh`
-/

set_option linter.unusedSimpArgs false

namespace FcRetrieval.RegRefresh

theorem countP_set_eq {α : Type} (p : α → Bool) : ∀ (l : List α) (i : Nat) (t t' : α), l[i]? = some t →
    (l.set i t').countP p + (if p t then 1 else 0) = l.countP p + (if p t' then 1 else 0)
  | [], i, t, t', h => by simp at h
  | a :: l, 0, t, t', h => by
    simp at h
    subst h
    simp only [List.set_cons_zero, List.countP_cons]
    omega
  | a :: l, i + 1, t, t', h => by
    have ih := countP_set_eq p l i t t' (by simpa using h)
    simp only [List.set_cons_succ, List.countP_cons]
    omega

/-- What a step does. -/
theorem step_some {s t : Sys} {a : Act} (h : step s a = some t) :
    (∃ i p, a = .call i ∧ s.callers[i]? = some p ∧ p.free = true ∧
      t = { s with callers := s.callers.set i (if s.running then .asking s.begun else .refused) }) ∨
    (∃ i k, a = .ask i ∧ s.callers[i]? = some (.asking k) ∧ s.routine = .idle ∧
      t = { s with routine := .round true, begun := s.begun + 1, callers := s.callers.set i (.waiting k) }) ∨
    (∃ i j k l, a = .pass i j ∧ s.callers[i]? = some (.asking k) ∧ s.callers[j]? = some (.waiting l) ∧
      t = { s with callers := (s.callers.set i (.waiting k)).set j (.returned l s.ended) }) ∨
    (a = .finish ∧ s.routine = .round true ∧ t = { s with routine := .reply, ended := s.ended + 1 }) ∨
    (a = .finish ∧ s.routine = .round false ∧ t = { s with routine := .idle, ended := s.ended + 1 }) ∨
    (∃ j l, a = .reply j ∧ s.callers[j]? = some (.waiting l) ∧ s.routine = .reply ∧
      t = { s with routine := .idle, callers := s.callers.set j (.returned l s.ended) }) ∨
    (a = .tick ∧ s.routine = .idle ∧ t = { s with routine := .round false, begun := s.begun + 1 }) ∨
    (∃ i p, a = .callStop i ∧ s.callers[i]? = some p ∧ p.free = true ∧
      t = { s with callers := s.callers.set i (if s.running then .stopping else .refused) }) ∨
    (∃ i, a = .stop i ∧ s.callers[i]? = some .stopping ∧ s.routine = .idle ∧
      t = { s with routine := .stopped, callers := s.callers.set i .clearing }) ∨
    (∃ i, a = .clear i ∧ s.callers[i]? = some .clearing ∧ t = { s with running := false, callers := s.callers.set i .out }) ∨
    (a = .start ∧ s.running = false ∧ s.routine = .stopped ∧ t = { s with routine := .round false, begun := s.begun + 1, running := true }) := by
  cases a <;> simp only [step] at h
  case call i =>
    split at h
    · next p hp =>
      by_cases hf : p.free = true
      · rw [if_pos hf] at h; injection h with h
        exact .inl ⟨i, p, rfl, hp, hf, h.symm⟩
      · rw [if_neg hf] at h; cases h
    · cases h
  case ask i =>
    split at h
    · next k h1 h2 => injection h with h; exact .inr (.inl ⟨i, k, rfl, h1, h2, h.symm⟩)
    · cases h
  case pass i j =>
    split at h
    · next k l h1 h2 => injection h with h; exact .inr (.inr (.inl ⟨i, j, k, l, rfl, h1, h2, h.symm⟩))
    · cases h
  case finish =>
    split at h
    · next h1 => injection h with h; exact .inr (.inr (.inr (.inl ⟨rfl, h1, h.symm⟩)))
    · next h1 => injection h with h; exact .inr (.inr (.inr (.inr (.inl ⟨rfl, h1, h.symm⟩))))
    · cases h
  case reply j =>
    split at h
    · next l h1 h2 => injection h with h; exact .inr (.inr (.inr (.inr (.inr (.inl ⟨j, l, rfl, h1, h2, h.symm⟩)))))
    · cases h
  case tick =>
    split at h
    · next h1 => injection h with h; exact .inr (.inr (.inr (.inr (.inr (.inr (.inl ⟨rfl, h1, h.symm⟩))))))
    · cases h
  case callStop i =>
    split at h
    · next p hp =>
      by_cases hf : p.free = true
      · rw [if_pos hf] at h; injection h with h
        exact .inr (.inr (.inr (.inr (.inr (.inr (.inr (.inl ⟨i, p, rfl, hp, hf, h.symm⟩)))))))
      · rw [if_neg hf] at h; cases h
    · cases h
  case stop i =>
    split at h
    · next h1 h2 => injection h with h; exact .inr (.inr (.inr (.inr (.inr (.inr (.inr (.inr (.inl ⟨i, rfl, h1, h2, h.symm⟩))))))))
    · cases h
  case clear i =>
    split at h
    · next h1 => injection h with h; exact .inr (.inr (.inr (.inr (.inr (.inr (.inr (.inr (.inr (.inl ⟨i, rfl, h1, h.symm⟩)))))))))
    · cases h
  case start =>
    split at h
    · next h1 => injection h with h; exact .inr (.inr (.inr (.inr (.inr (.inr (.inr (.inr (.inr (.inr ⟨rfl, h1.1, h1.2, h.symm⟩)))))))))
    · cases h

/-- A caller that waits for an answer. -/
def Pc.waits : Pc → Bool
  | .waiting _ => true
  | _ => false

/-- How many answers the routine owes. -/
def owed : Routine → Nat
  | .round true | .reply => 1
  | _ => 0

/-- One if a round is going on. -/
def busy : Routine → Nat
  | .round _ => 1
  | _ => 0

/-- The invariant. -/
structure Inv (s : Sys) : Prop where
  cnt : s.callers.countP Pc.waits = owed s.routine
  ord : s.begun = s.ended + busy s.routine
  ask : ∀ k, .asking k ∈ s.callers → k ≤ s.begun

theorem free_not_waits {p : Pc} (h : p.free = true) : p.waits = false := by cases p <;> simp_all [Pc.free, Pc.waits]

theorem inv_step {s t : Sys} {a : Act} (hs : Inv s) (h : step s a = some t) : Inv t := by
  obtain ⟨hc, ho, hk⟩ := hs
  have cset : ∀ i p q, s.callers[i]? = some p → (s.callers.set i q).countP Pc.waits + (if p.waits then 1 else 0) =
    s.callers.countP Pc.waits + (if q.waits then 1 else 0) := fun i p q h => countP_set_eq _ _ _ _ _ h
  have kset : ∀ i q b, s.begun ≤ b → (∀ k, q = .asking k → k ≤ b) → ∀ k, Pc.asking k ∈ s.callers.set i q → k ≤ b := by
    intro i q b hb hq k hm
    rcases List.mem_or_eq_of_mem_set hm with hm | hm
    · exact Nat.le_trans (hk k hm) hb
    · exact hq k hm.symm
  rcases step_some h with ⟨i, p, rfl, hp, hf, rfl⟩ | ⟨i, k, rfl, hp, hr, rfl⟩ | ⟨i, j, k, l, rfl, hp, hq, rfl⟩ | ⟨rfl, hr, rfl⟩ |
    ⟨rfl, hr, rfl⟩ | ⟨j, l, rfl, hp, hr, rfl⟩ | ⟨rfl, hr, rfl⟩ | ⟨i, p, rfl, hp, hf, rfl⟩ | ⟨i, rfl, hp, hr, rfl⟩ | ⟨i, rfl, hp, rfl⟩ |
    ⟨rfl, hrun, hr, rfl⟩
  · have := cset i p (if s.running then .asking s.begun else .refused) hp
    rw [free_not_waits hf] at this
    refine ⟨?_, ho, kset i _ _ (Nat.le_refl _) ?_⟩
    · cases hrun : s.running <;> simp [hrun, Pc.waits] at this ⊢ <;> omega
    · intro k
      cases hrun : s.running <;> simp
      intro h; omega
  · have := cset i _ (.waiting k) hp
    simp [Pc.waits] at this
    rw [hr] at hc ho
    simp only [owed, busy] at hc ho
    refine ⟨by simp [owed, this, hc], by simp [busy, ho], kset i _ _ (by simp) (by simp)⟩
  · have h1 := cset i _ (.waiting k) hp
    have hij : i ≠ j := by
      rintro rfl
      rw [hp] at hq; cases hq
    have h2 := countP_set_eq Pc.waits (s.callers.set i (.waiting k)) j (.waiting l) (.returned l s.ended) (by rw [List.getElem?_set_ne hij]; exact hq)
    simp [Pc.waits] at h1 h2
    refine ⟨by rw [← hc]; show List.countP _ (List.set _ _ _) = _; omega, ho, ?_⟩
    intro k' hm
    rcases List.mem_or_eq_of_mem_set hm with hm | hm
    · exact kset i (.waiting k) _ (Nat.le_refl _) (by simp) k' hm
    · cases hm
  · rw [hr] at hc ho
    exact ⟨by simpa [owed] using hc, by simpa [busy] using ho, hk⟩
  · rw [hr] at hc ho
    exact ⟨by simpa [owed] using hc, by simpa [busy] using ho, hk⟩
  · have := cset j _ (.returned l s.ended) hp
    rw [hr] at hc ho
    simp only [Pc.waits, owed, busy, if_true, Bool.false_eq_true, if_false] at this hc ho
    refine ⟨by simp only [owed]; omega, by simp [busy, ho], kset j _ _ (by simp) (by simp)⟩
  · rw [hr] at hc ho
    refine ⟨by simpa [owed] using hc, by simp [busy] at ho ⊢; omega, fun k hm => ?_⟩
    have := hk k hm
    simp only; omega
  · have := cset i p (if s.running then .stopping else .refused) hp
    rw [free_not_waits hf] at this
    refine ⟨?_, ho, kset i _ _ (Nat.le_refl _) ?_⟩
    · cases hrun : s.running <;> simp [hrun, Pc.waits] at this ⊢ <;> omega
    · intro k
      cases hrun : s.running <;> simp
  · have := cset i _ .clearing hp
    rw [hr] at hc ho
    simp only [Pc.waits, owed, busy] at this hc ho
    refine ⟨by simp only [owed]; simp at this; omega, by simp [busy, ho], kset i _ _ (by simp) (by simp)⟩
  · have := cset i _ .out hp
    simp only [Pc.waits] at this
    refine ⟨by simp only; simp at this; omega, ho, kset i _ _ (by simp) (by simp)⟩
  · rw [hr] at hc ho
    refine ⟨by simpa [owed] using hc, by simp [busy] at ho ⊢; omega, fun k hm => ?_⟩
    have := hk k hm
    simp only; omega

theorem inv_init (n : Nat) : Inv (init n) := by
  refine ⟨?_, rfl, ?_⟩
  · simp [init, owed, List.countP_replicate, Pc.waits]
  · intro k hm
    have := List.eq_of_mem_replicate hm
    cases this

theorem inv_run {acts : List Act} : ∀ {s t : Sys}, Inv s → run s acts = some t → Inv t := by
  induction acts with
  | nil => intro s t hs h; simp only [run, Option.some.injEq] at h; subst h; exact hs
  | cons a as ih =>
    intro s t hs h
    simp only [run] at h
    obtain ⟨s1, h1, h2⟩ := Option.bind_eq_some_iff.1 h
    exact ih (inv_step hs h1) h2

theorem run_append (s : Sys) (a b : List Act) : run s (a ++ b) = (run s a).bind (fun t => run t b) := by
  induction a generalizing s with
  | nil => rfl
  | cons x a ih =>
    simp only [List.cons_append, run]
    cases step s x with
    | none => rfl
    | some t => simp [ih]

end FcRetrieval.RegRefresh
