import Verif.Spec.RWLock
/-!
# Reader/writer locks taken in order never deadlock
-/

set_option linter.unusedSimpArgs false
set_option linter.unusedSectionVars false

namespace FcRetrieval.RWLock

variable {L : Type} [DecidableEq L] {rank : L → Nat} {free : L → Bool}

theorem mem_set_cases {α : Type} {s : List α} {i : Nat} {t u : α} (h : u ∈ s.set i t) : u = t ∨ u ∈ s := by
  rcases List.mem_or_eq_of_mem_set h with h | h
  · exact Or.inr h
  · exact Or.inl h

/-- What every thread keeps. -/
structure Good (rank : L → Nat) (free : L → Bool) (t : Thread L) : Prop where
  disciplined : Disciplined rank free t.held t.todo = true
  waits : t.waiting = true → ∃ l r, t.todo = .lock l :: r
  noFree : ∀ l, free l = true → (l, true) ∉ t.held

theorem good_begin {ops : List (Op L)} (h : Disciplined rank free [] ops = true) : Good rank free (begin_ ops) :=
  ⟨h, by simp [begin_], by simp [begin_]⟩

/-- What one step changes. -/
theorem step_some {s s' : List (Thread L)} {i : Nat} (h : step s i = some s') :
    ∃ t t', s[i]? = some t ∧ s' = s.set i t' ∧
      ((∃ r, t.todo = .work :: r ∧ t' = { t with todo := r }) ∨
       (∃ l r, t.todo = .runlock l :: r ∧ (l, false) ∈ t.held ∧ t' = { t with todo := r, held := t.held.erase (l, false) }) ∨
       (∃ l r, t.todo = .unlock l :: r ∧ (l, true) ∈ t.held ∧ t' = { t with todo := r, held := t.held.erase (l, true) }) ∨
       (∃ l r, t.todo = .rlock l :: r ∧ (∀ u ∈ s, u.writes l = false ∧ u.announced l = false) ∧
          t' = { t with todo := r, held := (l, false) :: t.held }) ∨
       (∃ l r, t.todo = .lock l :: r ∧ t.waiting = false ∧ (∀ u ∈ s, u.writes l = false ∧ u.announced l = false) ∧
          t' = { t with waiting := true }) ∨
       (∃ l r, t.todo = .lock l :: r ∧ t.waiting = true ∧ (∀ u ∈ s, u.holds l = false) ∧
          t' = { todo := r, held := (l, true) :: t.held, waiting := false })) := by
  unfold step at h
  cases hi : s[i]? with
  | none => simp [hi] at h
  | some t =>
    simp only [hi] at h
    cases ht : t.todo with
    | nil => simp [ht] at h
    | cons op r =>
      simp only [ht] at h
      cases op with
      | work =>
        simp only [Option.some.injEq] at h
        exact ⟨t, _, rfl, h.symm, Or.inl ⟨r, ht, rfl⟩⟩
      | runlock l =>
        simp only [] at h
        split at h
        · rename_i hm
          simp only [Option.some.injEq] at h
          exact ⟨t, _, rfl, h.symm, Or.inr (Or.inl ⟨l, r, ht, by simpa using hm, rfl⟩)⟩
        · simp at h
      | unlock l =>
        simp only [] at h
        split at h
        · rename_i hm
          simp only [Option.some.injEq] at h
          exact ⟨t, _, rfl, h.symm, Or.inr (Or.inr (Or.inl ⟨l, r, ht, by simpa using hm, rfl⟩))⟩
        · simp at h
      | rlock l =>
        simp only [] at h
        split at h
        · simp at h
        · rename_i hm
          simp only [Option.some.injEq] at h
          refine ⟨t, _, rfl, h.symm, Or.inr (Or.inr (Or.inr (Or.inl ⟨l, r, ht, ?_, rfl⟩)))⟩
          intro u hu
          simp only [List.any_eq_true, not_exists, not_and, Bool.or_eq_true, not_or, Bool.not_eq_true] at hm
          exact hm u hu
      | lock l =>
        simp only [] at h
        by_cases hw : t.waiting = true
        · simp only [hw, if_true] at h
          split at h
          · simp at h
          · rename_i hm
            simp only [Option.some.injEq] at h
            refine ⟨t, _, rfl, h.symm, Or.inr (Or.inr (Or.inr (Or.inr (Or.inr ⟨l, r, ht, hw, ?_, rfl⟩))))⟩
            intro u hu
            simp only [List.any_eq_true, not_exists, not_and, Bool.not_eq_true] at hm
            exact hm u hu
        · have hw' : t.waiting = false := by simpa using hw
          simp only [hw', Bool.false_eq_true, if_false] at h
          split at h
          · simp at h
          · rename_i hm
            simp only [Option.some.injEq] at h
            refine ⟨t, _, rfl, h.symm, Or.inr (Or.inr (Or.inr (Or.inr (Or.inl ⟨l, r, ht, hw', ?_, by rw [ht]⟩))))⟩
            intro u hu
            simp only [List.any_eq_true, not_exists, not_and, Bool.or_eq_true, not_or, Bool.not_eq_true] at hm
            exact hm u hu

theorem good_step {s s' : List (Thread L)} {i : Nat} (hg : ∀ t ∈ s, Good rank free t) (h : step s i = some s') :
    ∀ t ∈ s', Good rank free t := by
  obtain ⟨t, t', hi, rfl, hc⟩ := step_some h
  intro u hu
  rcases (mem_set_cases hu).symm with hu | rfl
  · exact hg u hu
  have ht := hg t (List.mem_of_getElem? hi)
  obtain ⟨hd, hwt, hf⟩ := ht
  have nowait : ∀ op r, t.todo = op :: r → (∀ l, op ≠ .lock l) → t.waiting = false := by
    intro op r h1 h2
    cases hw : t.waiting with
    | false => rfl
    | true =>
      obtain ⟨l, r', h3⟩ := hwt hw
      rw [h1] at h3
      injection h3 with h3
      exact absurd h3 (h2 l)
  rcases hc with ⟨r, h1, rfl⟩ | ⟨l, r, h1, h2, rfl⟩ | ⟨l, r, h1, h2, rfl⟩ | ⟨l, r, h1, h2, rfl⟩ | ⟨l, r, h1, h2, h3, rfl⟩ | ⟨l, r, h1, h2, h3, rfl⟩
  · rw [h1] at hd
    have := nowait _ _ h1 (by simp)
    exact ⟨by simpa [Disciplined] using hd, by simp [this], hf⟩
  · rw [h1] at hd
    have := nowait _ _ h1 (by simp)
    simp only [Disciplined, Bool.and_eq_true] at hd
    exact ⟨hd.2, by simp [this], fun l' hl' hm => hf l' hl' (List.mem_of_mem_erase hm)⟩
  · rw [h1] at hd
    have := nowait _ _ h1 (by simp)
    simp only [Disciplined, Bool.and_eq_true] at hd
    exact ⟨hd.2, by simp [this], fun l' hl' hm => hf l' hl' (List.mem_of_mem_erase hm)⟩
  · rw [h1] at hd
    have := nowait _ _ h1 (by simp)
    simp only [Disciplined, Bool.and_eq_true] at hd
    exact ⟨hd.2, by simp [this], fun l' hl' hm => hf l' hl' (by simpa using hm)⟩
  · exact ⟨hd, fun _ => ⟨l, r, h1⟩, hf⟩
  · rw [h1] at hd
    simp only [Disciplined, Bool.and_eq_true, Bool.not_eq_true'] at hd
    refine ⟨hd.2, by simp, fun l' hl' hm => ?_⟩
    rcases List.mem_cons.1 hm with hm | hm
    · injection hm with hm _
      rw [hm, hd.1.1] at hl'
      exact Bool.noConfusion hl'
    · exact hf l' hl' hm

theorem good_run {sched : List Nat} : ∀ {s s' : List (Thread L)}, (∀ t ∈ s, Good rank free t) → run s sched = some s' → ∀ t ∈ s', Good rank free t := by
  induction sched with
  | nil =>
    intro s s' hg h
    simp only [run, Option.some.injEq] at h
    subst h; exact hg
  | cons i is ih =>
    intro s s' hg h
    simp only [run] at h
    obtain ⟨s1, h1, h2⟩ := Option.bind_eq_some_iff.1 h
    exact ih (good_step hg h1) h2

/-! ### A thread at the front of the order can go on -/

/-- The lock a thread wants next. -/
def wants (t : Thread L) : Option L :=
  match t.todo with
  | .rlock l :: _ => some l
  | .lock l :: _ => some l
  | _ => none

theorem exists_max {α : Type} (f : α → Nat) : ∀ (l : List α), l ≠ [] → ∃ x ∈ l, ∀ y ∈ l, f y ≤ f x
  | [], h => absurd rfl h
  | [x], _ => ⟨x, by simp, by simp⟩
  | x :: y :: l, _ => by
    obtain ⟨z, hz, hm⟩ := exists_max f (y :: l) (by simp)
    by_cases hxz : f x ≤ f z
    · refine ⟨z, by simp [List.mem_cons.1 hz], ?_⟩
      intro w hw
      rcases List.mem_cons.1 hw with rfl | hw
      · exact hxz
      · exact hm w hw
    · refine ⟨x, by simp, ?_⟩
      intro w hw
      rcases List.mem_cons.1 hw with rfl | hw
      · exact Nat.le_refl _
      · have := hm w hw; omega

theorem progress {s : List (Thread L)} (hg : ∀ t ∈ s, Good rank free t) (hn : ¬ Done s) : ∃ i s', step s i = some s' := by
  refine Classical.byContradiction fun hstuck => ?_
  have hstuck : ∀ i, step s i = none := by
    intro i
    cases h : step s i with
    | none => rfl
    | some s' => exact absurd ⟨i, s', h⟩ hstuck
  -- every unfinished thread waits for a lock that is not free
  have hwant : ∀ t ∈ s, t.todo ≠ [] → ∃ l, wants t = some l ∧ free l = false := by
    intro t ht hne
    obtain ⟨i, hi⟩ := List.getElem?_of_mem ht
    have hs := hstuck i
    unfold step at hs
    simp only [hi] at hs
    obtain ⟨hd, hw, hf⟩ := hg t ht
    cases hto : t.todo with
    | nil => exact absurd hto hne
    | cons op r =>
      simp only [hto] at hs hd
      cases op with
      | work => simp at hs
      | runlock l => simp only [Disciplined, Bool.and_eq_true] at hd hs; rw [if_pos hd.1] at hs; cases hs
      | unlock l => simp only [Disciplined, Bool.and_eq_true] at hd hs; rw [if_pos hd.1] at hs; cases hs
      | rlock l =>
        refine ⟨l, by simp [wants, hto], ?_⟩
        cases hfl : free l with
        | false => rfl
        | true =>
          exfalso
          simp only [] at hs
          split at hs
          · rename_i hm
            rw [List.any_eq_true] at hm
            obtain ⟨u, hu, hm⟩ := hm
            obtain ⟨hd', hw', hf'⟩ := hg u hu
            rw [Bool.or_eq_true] at hm
            rcases hm with hm | hm
            · exact hf' l hfl (by simpa [Thread.writes] using hm)
            · unfold Thread.announced at hm
              simp only [Bool.and_eq_true, beq_iff_eq] at hm
              cases hu' : u.todo with
              | nil => rw [hu'] at hm; simp at hm
              | cons op' r' =>
                rw [hu'] at hm hd'
                simp at hm
                rw [hm.2] at hd'
                simp [Disciplined, hfl] at hd'
          · cases hs
      | lock l =>
        simp only [Disciplined, Bool.and_eq_true, Bool.not_eq_true'] at hd
        exact ⟨l, by simp [wants, hto], hd.1.1⟩
  -- threads that are done hold nothing
  have hnothing : ∀ t ∈ s, t.todo = [] → t.held = [] := by
    intro t ht h0
    have := (hg t ht).disciplined
    rw [h0] at this
    simpa [Disciplined] using this
  -- locks held come before the lock wanted
  have horder : ∀ t ∈ s, ∀ l, wants t = some l → free l = false → ∀ h ∈ t.held, free h.1 = false → rank h.1 < rank l := by
    intro t ht l hl hfl h hh hfh
    have hd := (hg t ht).disciplined
    unfold wants at hl
    cases hto : t.todo with
    | nil => simp [hto] at hl
    | cons op r =>
      rw [hto] at hl hd
      cases op with
      | work => simp at hl
      | runlock _ => simp at hl
      | unlock _ => simp at hl
      | rlock l' =>
        simp at hl; subst hl
        simp only [Disciplined, Bool.and_eq_true, Bool.or_eq_true, hfl, Bool.false_eq_true, false_or, List.all_eq_true] at hd
        have := hd.1 h hh
        simpa [hfh] using this
      | lock l' =>
        simp at hl; subst hl
        simp only [Disciplined, Bool.and_eq_true, Bool.or_eq_true, List.all_eq_true] at hd
        have := hd.1.2 h hh
        simpa [hfh] using this
  -- the unfinished thread that wants the last lock
  have hne : s.filter (fun t => !t.todo.isEmpty) ≠ [] := by
    intro he
    apply hn
    intro t ht
    have h0 : t.todo = [] := by
      refine Classical.byContradiction fun hc => ?_
      have : t ∈ s.filter (fun t => !t.todo.isEmpty) := List.mem_filter.2 ⟨ht, by simpa using hc⟩
      rw [he] at this; simp at this
    exact ⟨h0, hnothing t ht h0⟩
  obtain ⟨t, ht, hmax⟩ := exists_max (fun t => match wants t with | some l => rank l | none => 0) _ hne
  rw [List.mem_filter] at ht
  obtain ⟨ht, hto⟩ := ht
  obtain ⟨l, hl, hfl⟩ := hwant t ht (by simpa using hto)
  -- nobody holds that lock
  have hfreeNow : ∀ u ∈ s, u.holds l = false := by
    intro u hu
    cases hh : u.holds l with
    | false => rfl
    | true =>
      exfalso
      have hmem : ∃ b, (l, b) ∈ u.held := by
        unfold Thread.holds at hh
        rw [Bool.or_eq_true] at hh
        rcases hh with hh | hh
        · exact ⟨true, by simpa using hh⟩
        · exact ⟨false, by simpa using hh⟩
      obtain ⟨b, hb⟩ := hmem
      have hune : u.todo ≠ [] := by
        intro h0
        rw [hnothing u hu h0] at hb
        simp at hb
      obtain ⟨l', hl', hfl'⟩ := hwant u hu hune
      have h1 := horder u hu l' hl' hfl' _ hb hfl
      have h2 := hmax u (List.mem_filter.2 ⟨hu, by simpa using hune⟩)
      simp only [hl, hl'] at h2
      simp at h1
      omega
  have hwritesNow : ∀ u ∈ s, u.writes l = false := by
    intro u hu
    have := hfreeNow u hu
    unfold Thread.holds at this
    rw [Bool.or_eq_false_iff] at this
    exact this.1
  -- a writer that has announced can take it
  by_cases hann : ∃ u ∈ s, u.announced l = true
  · obtain ⟨u, hu, ha⟩ := hann
    obtain ⟨i, hi⟩ := List.getElem?_of_mem hu
    have hs := hstuck i
    unfold Thread.announced at ha
    simp only [Bool.and_eq_true, beq_iff_eq] at ha
    cases hu' : u.todo with
    | nil => rw [hu'] at ha; simp at ha
    | cons op r =>
      rw [hu'] at ha
      simp at ha
      unfold step at hs
      have hnone : ¬ (s.any (fun u => u.holds l) = true) := by
        rw [List.any_eq_true]
        rintro ⟨v, hv, hv'⟩
        rw [hfreeNow v hv] at hv'
        exact Bool.noConfusion hv'
      simp only [hi, hu', ha.2, ha.1, if_true, if_neg hnone] at hs
      cases hs
  · have hna : ∀ u ∈ s, u.announced l = false := by
      intro u hu
      cases h : u.announced l with
      | false => rfl
      | true => exact absurd ⟨u, hu, h⟩ hann
    obtain ⟨i, hi⟩ := List.getElem?_of_mem ht
    have hs := hstuck i
    have hnone : ¬ (s.any (fun u => u.writes l || u.announced l) = true) := by
      rw [List.any_eq_true]
      rintro ⟨v, hv, hv'⟩
      rw [hwritesNow v hv, hna v hv] at hv'
      exact Bool.noConfusion hv'
    have hnone' : ¬ (s.any (fun u => u.holds l) = true) := by
      rw [List.any_eq_true]
      rintro ⟨v, hv, hv'⟩
      rw [hfreeNow v hv] at hv'
      exact Bool.noConfusion hv'
    unfold wants at hl
    unfold step at hs
    cases hto' : t.todo with
    | nil => simp [hto'] at hl
    | cons op r =>
      rw [hto'] at hl
      simp only [hi, hto'] at hs
      cases op with
      | work => simp at hl
      | runlock _ => simp at hl
      | unlock _ => simp at hl
      | rlock l' =>
        simp at hl; subst hl
        simp only [if_neg hnone] at hs
        cases hs
      | lock l' =>
        simp at hl; subst hl
        cases hw : t.waiting with
        | true => simp only [hw, if_true, if_neg hnone'] at hs; cases hs
        | false => simp only [hw, Bool.false_eq_true, if_false, if_neg hnone] at hs; cases hs

/-! ### Every step makes headway -/

/-- Steps a thread has left. -/
def left (t : Thread L) : Nat := 2 * t.todo.length - (if t.waiting then 1 else 0)

theorem sum_set {α : Type} (f : α → Nat) : ∀ {s : List α} {i : Nat} {t t' : α}, s[i]? = some t → f t' + 1 ≤ f t →
    ((s.set i t').map f).sum + 1 ≤ (s.map f).sum
  | [], i, _, _, h, _ => by simp at h
  | x :: s, 0, t, t', h, hf => by
    simp at h; subst h
    simp only [List.set_cons_zero, List.map_cons, List.sum_cons]
    omega
  | x :: s, i + 1, t, t', h, hf => by
    have := sum_set f (s := s) (i := i) (t := t) (t' := t') (by simpa using h) hf
    simp only [List.set_cons_succ, List.map_cons, List.sum_cons]
    omega

theorem left_step {s s' : List (Thread L)} {i : Nat} (hg : ∀ t ∈ s, Good rank free t) (h : step s i = some s') :
    (s'.map left).sum + 1 ≤ (s.map left).sum := by
  obtain ⟨t, t', hi, rfl, hc⟩ := step_some h
  apply sum_set left hi
  have hw := (hg t (List.mem_of_getElem? hi)).waits
  have nowait : ∀ op r, t.todo = op :: r → (∀ l, op ≠ .lock l) → t.waiting = false := by
    intro op r h1 h2
    cases hw' : t.waiting with
    | false => rfl
    | true =>
      obtain ⟨l, r', h3⟩ := hw hw'
      rw [h1] at h3
      injection h3 with h3
      exact absurd h3 (h2 l)
  unfold left
  rcases hc with ⟨r, h1, rfl⟩ | ⟨l, r, h1, h2, rfl⟩ | ⟨l, r, h1, h2, rfl⟩ | ⟨l, r, h1, h2, rfl⟩ | ⟨l, r, h1, h2, h3, rfl⟩ | ⟨l, r, h1, h2, h3, rfl⟩
  · simp [h1, nowait _ _ h1 (by simp)]; omega
  · simp [h1, nowait _ _ h1 (by simp)]; omega
  · simp [h1, nowait _ _ h1 (by simp)]; omega
  · simp [h1, nowait _ _ h1 (by simp)]; omega
  · simp [h1, h2]; omega
  · simp [h1, h2]; omega

theorem left_run {sched : List Nat} : ∀ {s s' : List (Thread L)}, (∀ t ∈ s, Good rank free t) → run s sched = some s' →
    (s'.map left).sum + sched.length ≤ (s.map left).sum := by
  induction sched with
  | nil =>
    intro s s' hg h
    simp only [run, Option.some.injEq] at h
    subst h; simp
  | cons i is ih =>
    intro s s' hg h
    simp only [run] at h
    obtain ⟨s1, h1, h2⟩ := Option.bind_eq_some_iff.1 h
    have e1 := left_step hg h1
    have e2 := ih (good_step hg h1) h2
    simp only [List.length_cons]
    omega

theorem run_append (a b : List Nat) (s : List (Thread L)) : run s (a ++ b) = (run s a).bind (fun s => run s b) := by
  induction a generalizing s with
  | nil => rfl
  | cons i a ih =>
    simp only [List.cons_append, run]
    cases step s i with
    | none => rfl
    | some s1 => exact ih s1

theorem finish (n : Nat) : ∀ {s : List (Thread L)}, (∀ t ∈ s, Good rank free t) → (s.map left).sum ≤ n → ∃ sched s', run s sched = some s' ∧ Done s' := by
  induction n with
  | zero =>
    intro s hg hl
    refine ⟨[], s, rfl, ?_⟩
    refine Classical.byContradiction fun hn => ?_
    obtain ⟨i, s', h⟩ := progress hg hn
    have := left_step hg h
    omega
  | succ n ih =>
    intro s hg hl
    by_cases hd : Done s
    · exact ⟨[], s, rfl, hd⟩
    · obtain ⟨i, s1, h⟩ := progress hg hd
      have := left_step hg h
      obtain ⟨sched, s', h1, h2⟩ := ih (good_step hg h) (by omega)
      exact ⟨i :: sched, s', by simp [run, h, h1], h2⟩

/-- **Ordered locks.** Threads that follow the discipline always complete. -/
theorem disciplined_completes {s : List (Thread L)} (hg : ∀ t ∈ s, Good rank free t) : AlwaysCompletes s := by
  refine ⟨(s.map left).sum, fun sched s' h => ⟨?_, ?_, ?_⟩⟩
  · have := left_run hg h; omega
  · intro hst
    refine Classical.byContradiction fun hn => ?_
    obtain ⟨i, s'', h'⟩ := progress (good_run hg h) hn
    rw [hst i] at h'
    cases h'
  · exact finish _ (good_run hg h) (Nat.le_refl _)

theorem disciplined_append : ∀ {a : List (Op L)} {held : List (L × Bool)} {b : List (Op L)}, Disciplined rank free held a = true →
    Disciplined rank free [] b = true → Disciplined rank free held (a ++ b) = true := by
  intro a
  induction a with
  | nil =>
    intro held b ha hb
    simp only [Disciplined, List.isEmpty_iff] at ha
    subst ha; exact hb
  | cons op a ih =>
    intro held b ha hb
    cases op <;> simp only [List.cons_append, Disciplined, Bool.and_eq_true] at ha ⊢
    · exact ⟨ha.1, ih ha.2 hb⟩
    · exact ⟨ha.1, ih ha.2 hb⟩
    · exact ⟨ha.1, ih ha.2 hb⟩
    · exact ⟨ha.1, ih ha.2 hb⟩
    · exact ih ha hb

theorem disciplined_flatMap {α : Type} {f : α → List (Op L)} : ∀ {l : List α}, (∀ x ∈ l, Disciplined rank free [] (f x) = true) →
    Disciplined rank free [] (l.flatMap f) = true
  | [], _ => rfl
  | x :: l, h => by
    rw [List.flatMap_cons]
    exact disciplined_append (h x (by simp)) (disciplined_flatMap (fun y hy => h y (by simp [hy])))

/-! ### Writers exclude everybody else -/

/-- The invariant behind `Exclusive`. -/
structure Excl (s : List (Thread L)) : Prop where
  waits : ∀ t ∈ s, t.waiting = true → ∃ l r, t.todo = .lock l :: r
  pair : ∀ (i j : Nat) (t u : Thread L) (l : L), s[i]? = some t → s[j]? = some u → i ≠ j →
    (t.writes l = true → u.holds l = false ∧ u.announced l = false) ∧ (t.announced l = true → u.announced l = false)

theorem holds_of_writes {t : Thread L} {l : L} (h : t.writes l = true) : t.holds l = true := by
  unfold Thread.holds; unfold Thread.writes at h; rw [h, Bool.true_or]

theorem excl_step {s s' : List (Thread L)} {k : Nat} (hx : Excl s) (h : step s k = some s') : Excl s' := by
  obtain ⟨v, v', hk, rfl, hc⟩ := step_some h
  have hlt : k < s.length := by
    rcases Nat.lt_or_ge k s.length with h | h
    · exact h
    · rw [List.getElem?_eq_none h] at hk; cases hk
  have hv := List.mem_of_getElem? hk
  have nowait : ∀ op r, v.todo = op :: r → (∀ l, op ≠ .lock l) → v.waiting = false := by
    intro op r h1 h2
    cases hw' : v.waiting with
    | false => rfl
    | true =>
      obtain ⟨l, r', h3⟩ := hx.waits v hv hw'
      rw [h1] at h3
      injection h3 with h3
      exact absurd h3 (h2 l)
  -- what the new thread may do to any other
  have key : (v'.waiting = true → ∃ l r, v'.todo = .lock l :: r) ∧ ∀ (j : Nat) (u : Thread L) (l : L), s[j]? = some u → k ≠ j →
      (v'.writes l = true → u.holds l = false ∧ u.announced l = false) ∧ (v'.announced l = true → u.announced l = false) ∧
      (u.writes l = true → v'.holds l = false ∧ v'.announced l = false) ∧ (u.announced l = true → v'.announced l = false) := by
    have old : ∀ (j : Nat) (u : Thread L) (l : L), s[j]? = some u → k ≠ j →
        (v.writes l = true → u.holds l = false ∧ u.announced l = false) ∧ (v.announced l = true → u.announced l = false) ∧
        (u.writes l = true → v.holds l = false ∧ v.announced l = false) ∧ (u.announced l = true → v.announced l = false) := by
      intro j u l hj hne
      have h1 := hx.pair k j v u l hk hj hne
      have h2 := hx.pair j k u v l hj hk (fun e => hne e.symm)
      exact ⟨h1.1, h1.2, h2.1, h2.2⟩
    -- a thread that holds no more than before and has not announced anything
    have less : ∀ w : Thread L, w.waiting = false → (∀ x ∈ w.held, x ∈ v.held) →
        (w.waiting = true → ∃ l r, w.todo = .lock l :: r) ∧ ∀ (j : Nat) (u : Thread L) (l : L), s[j]? = some u → k ≠ j →
        (w.writes l = true → u.holds l = false ∧ u.announced l = false) ∧ (w.announced l = true → u.announced l = false) ∧
        (u.writes l = true → w.holds l = false ∧ w.announced l = false) ∧ (u.announced l = true → w.announced l = false) := by
      intro w hw hsub
      refine ⟨by simp [hw], fun j u l hj hne => ?_⟩
      obtain ⟨h1, h2, h3, h4⟩ := old j u l hj hne
      have hann : w.announced l = false := by simp [Thread.announced, hw]
      refine ⟨fun h => h1 ?_, by simp [hann], fun h => ⟨?_, hann⟩, fun _ => hann⟩
      · simp only [Thread.writes, List.contains_iff_mem] at h ⊢
        exact hsub _ h
      · have := (h3 h).1
        simp only [Thread.holds, Bool.or_eq_false_iff, List.contains_eq_mem, decide_eq_false_iff_not] at this ⊢
        exact ⟨fun hm => this.1 (hsub _ hm), fun hm => this.2 (hsub _ hm)⟩
    rcases hc with ⟨r, h1, rfl⟩ | ⟨l, r, h1, h2, rfl⟩ | ⟨l, r, h1, h2, rfl⟩ | ⟨l, r, h1, h2, rfl⟩ | ⟨l, r, h1, h2, h3, rfl⟩ | ⟨l, r, h1, h2, h3, rfl⟩
    · exact less _ (nowait _ _ h1 (by simp)) (fun x hx => hx)
    · exact less _ (nowait _ _ h1 (by simp)) (fun x hx => List.mem_of_mem_erase hx)
    · exact less _ (nowait _ _ h1 (by simp)) (fun x hx => List.mem_of_mem_erase hx)
    · have hw := nowait _ _ h1 (by simp)
      refine ⟨by simp [hw], fun j u l' hj hne => ?_⟩
      obtain ⟨o1, o2, o3, o4⟩ := old j u l' hj hne
      have hann : ({ v with todo := r, held := (l, false) :: v.held } : Thread L).announced l' = false := by simp [Thread.announced, hw]
      refine ⟨fun h => o1 (by simpa [Thread.writes] using h), by simp [hann], fun hwr => ⟨?_, hann⟩, fun _ => hann⟩
      have hll : l' ≠ l := by
        rintro rfl
        rw [(h2 u (List.mem_of_getElem? hj)).1] at hwr
        cases hwr
      have := (o3 hwr).1
      simp only [Thread.holds, Bool.or_eq_false_iff, List.contains_eq_mem, decide_eq_false_iff_not] at this ⊢
      refine ⟨by simpa using this.1, ?_⟩
      intro hm
      rcases List.mem_cons.1 hm with hm | hm
      · injection hm with hm; exact hll hm
      · exact this.2 hm
    · refine ⟨fun _ => ⟨l, r, h1⟩, fun j u l' hj hne => ?_⟩
      obtain ⟨o1, o2, o3, o4⟩ := old j u l' hj hne
      have hu := h3 u (List.mem_of_getElem? hj)
      refine ⟨o1, fun h => ?_, fun h => ⟨(o3 h).1, ?_⟩, fun h => ?_⟩
      · have : l' = l := by
          simp [Thread.announced, h1] at h
          exact h.symm
        rw [this]; exact hu.2
      · cases ha : ({ v with waiting := true } : Thread L).announced l' with
        | false => rfl
        | true =>
          have : l = l' := by simpa [Thread.announced, h1] using ha
          rw [← this, hu.1] at h
          cases h
      · cases ha : ({ v with waiting := true } : Thread L).announced l' with
        | false => rfl
        | true =>
          have : l = l' := by simpa [Thread.announced, h1] using ha
          rw [← this, hu.2] at h
          cases h
    · refine ⟨by simp, fun j u l' hj hne => ?_⟩
      obtain ⟨o1, o2, o3, o4⟩ := old j u l' hj hne
      have hu := h3 u (List.mem_of_getElem? hj)
      have hvann : v.announced l = true := by simp [Thread.announced, h1, h2]
      have hann : ({ todo := r, held := (l, true) :: v.held, waiting := false } : Thread L).announced l' = false := by simp [Thread.announced]
      refine ⟨fun h => ?_, by simp [hann], fun hwr => ⟨?_, hann⟩, fun _ => hann⟩
      · by_cases hl : l' = l
        · subst hl
          exact ⟨hu, o2 hvann⟩
        · apply o1
          simpa [Thread.writes, hl] using h
      · have hll : l' ≠ l := by
          rintro rfl
          rw [holds_of_writes hwr] at hu
          cases hu
        have := (o3 hwr).1
        simp only [Thread.holds, Bool.or_eq_false_iff, List.contains_eq_mem, decide_eq_false_iff_not] at this ⊢
        refine ⟨?_, by simpa using this.2⟩
        intro hm
        rcases List.mem_cons.1 hm with hm | hm
        · injection hm with hm; exact hll hm
        · exact this.1 hm
  constructor
  · intro t ht
    rcases mem_set_cases ht with rfl | ht
    · exact key.1
    · exact hx.waits t ht
  · intro i j t u l hi hj hne
    by_cases hki : k = i
    · subst hki
      rw [List.getElem?_set_self hlt] at hi
      injection hi with hi
      subst hi
      rw [List.getElem?_set_ne hne] at hj
      obtain ⟨h1, h2, _, _⟩ := key.2 j u l hj hne
      exact ⟨h1, h2⟩
    · rw [List.getElem?_set_ne hki] at hi
      by_cases hkj : k = j
      · subst hkj
        rw [List.getElem?_set_self hlt] at hj
        injection hj with hj
        subst hj
        obtain ⟨_, _, h3, h4⟩ := key.2 i t l hi hki
        exact ⟨h3, h4⟩
      · rw [List.getElem?_set_ne hkj] at hj
        exact hx.pair i j t u l hi hj hne

theorem excl_run {sched : List Nat} : ∀ {s s' : List (Thread L)}, Excl s → run s sched = some s' → Excl s' := by
  induction sched with
  | nil =>
    intro s s' hx h
    simp only [run, Option.some.injEq] at h
    subst h; exact hx
  | cons i is ih =>
    intro s s' hx h
    simp only [run] at h
    obtain ⟨s1, h1, h2⟩ := Option.bind_eq_some_iff.1 h
    exact ih (excl_step hx h1) h2

theorem exclusive_run {sched : List Nat} {s s' : List (Thread L)} (hs : ∀ t ∈ s, ∃ ops, t = begin_ ops) (h : run s sched = some s') :
    Exclusive s' := by
  have hx : Excl s := by
    constructor
    · intro t ht hw
      obtain ⟨ops, rfl⟩ := hs t ht
      simp [begin_] at hw
    · intro i j t u l hi hj _
      obtain ⟨ops, rfl⟩ := hs t (List.mem_of_getElem? hi)
      obtain ⟨ops', rfl⟩ := hs u (List.mem_of_getElem? hj)
      simp [begin_, Thread.writes, Thread.holds, Thread.announced]
  intro i j t u l hi hj hne hw
  exact (((excl_run hx h).pair i j t u l hi hj hne).1 hw).1

end FcRetrieval.RWLock
