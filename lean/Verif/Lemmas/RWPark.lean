import Verif.Lemmas.RWLock
set_option linter.unusedSimpArgs false
/-!
# A thread that rests while others go on
-/

namespace FcRetrieval.RWLock

variable {L : Type} [DecidableEq L]

/-- What a thread has left to do, and holds, comes from these operations. -/
structure From (ops : List (Op L)) (t : Thread L) : Prop where
  todo : ∀ op ∈ t.todo, op ∈ ops
  writes : ∀ l, (l, true) ∈ t.held → .lock l ∈ ops
  reads : ∀ l, (l, false) ∈ t.held → .rlock l ∈ ops

omit [DecidableEq L] in
theorem from_begin (ops : List (Op L)) : From ops (begin_ ops) := ⟨fun _ h => h, by simp [begin_], by simp [begin_]⟩

theorem from_step {s s' : List (Thread L)} {k : Nat} (h : step s k = some s') {f : Nat → List (Op L)}
    (hf : ∀ j t, s[j]? = some t → From (f j) t) : ∀ j t, s'[j]? = some t → From (f j) t := by
  obtain ⟨v, v', hk, rfl, hc⟩ := step_some h
  intro j t hj
  by_cases hjk : k = j
  · subst hjk
    have hlt : k < s.length := by
      rcases Nat.lt_or_ge k s.length with h | h
      · exact h
      · rw [List.getElem?_eq_none h] at hk; cases hk
    rw [List.getElem?_set_self hlt] at hj
    injection hj with hj
    subst hj
    have hv := hf k v hk
    rcases hc with ⟨r, e1, rfl⟩ | ⟨l', r, e1, _, rfl⟩ | ⟨l', r, e1, _, rfl⟩ | ⟨l', r, e1, _, rfl⟩ | ⟨l', r, e1, _, _, rfl⟩ | ⟨l', r, e1, _, e3, rfl⟩
    · exact ⟨fun op h => hv.todo op (by rw [e1]; simp [h]), hv.writes, hv.reads⟩
    · exact ⟨fun op h => hv.todo op (by rw [e1]; simp [h]), fun l h => hv.writes l (List.mem_of_mem_erase h),
        fun l h => hv.reads l (List.mem_of_mem_erase h)⟩
    · exact ⟨fun op h => hv.todo op (by rw [e1]; simp [h]), fun l h => hv.writes l (List.mem_of_mem_erase h),
        fun l h => hv.reads l (List.mem_of_mem_erase h)⟩
    · refine ⟨fun op h => hv.todo op (by rw [e1]; simp [h]), fun l h => ?_, fun l h => ?_⟩
      · simp at h; exact hv.writes l h
      · simp at h
        rcases h with rfl | h
        · exact hv.todo _ (by rw [e1]; simp)
        · exact hv.reads l h
    · exact ⟨hv.todo, hv.writes, hv.reads⟩
    · refine ⟨fun op h => hv.todo op (by rw [e1]; simp [h]), fun l h => ?_, fun l h => ?_⟩
      · simp at h
        rcases h with rfl | h
        · exact hv.todo _ (by rw [e1]; simp)
        · exact hv.writes l h
      · simp at h; exact hv.reads l h
  · rw [List.getElem?_set_ne hjk] at hj
    exact hf j t hj

theorem from_run {sched : List Nat} : ∀ {s s' : List (Thread L)} {f : Nat → List (Op L)}, (∀ j t, s[j]? = some t → From (f j) t) →
    run s sched = some s' → ∀ j t, s'[j]? = some t → From (f j) t := by
  induction sched with
  | nil =>
    intro s s' f hf h
    simp only [run, Option.some.injEq] at h
    subst h; exact hf
  | cons k is ih =>
    intro s s' f hf h
    simp only [run] at h
    obtain ⟨s1, h1, h2⟩ := Option.bind_eq_some_iff.1 h
    exact ih (from_step h1 hf) h2

theorem run_length {sched : List Nat} : ∀ {s s' : List (Thread L)}, run s sched = some s' → s'.length = s.length := by
  induction sched with
  | nil =>
    intro s s' h
    simp only [run, Option.some.injEq] at h
    subst h; rfl
  | cons k is ih =>
    intro s s' h
    simp only [run] at h
    obtain ⟨s1, h1, h2⟩ := Option.bind_eq_some_iff.1 h
    obtain ⟨v, v', hk, rfl, hc⟩ := step_some h1
    rw [ih h2, List.length_set]

/-- Operations that do not get in the way of others: what one takes for writing the other does not take, and what one takes for reading
the other does not take for writing. -/
def Clear (a b : List (Op L)) : Prop :=
  ∀ l, (.lock l ∈ a → .rlock l ∉ b ∧ .lock l ∉ b) ∧ (.rlock l ∈ a → .lock l ∉ b)

theorem from_writes {a : List (Op L)} {t : Thread L} {l : L} (h : From a t) (hl : .lock l ∉ a) : t.writes l = false ∧ t.announced l = false := by
  constructor
  · unfold Thread.writes
    cases hc : t.held.contains (l, true) with
    | false => rfl
    | true => exact absurd (h.writes l (by simpa using hc)) hl
  · unfold Thread.announced
    cases hc : (t.waiting && t.todo.head? == some (.lock l)) with
    | false => rfl
    | true =>
      simp only [Bool.and_eq_true, beq_iff_eq] at hc
      exact absurd (h.todo _ (List.mem_of_mem_head? hc.2)) hl

theorem from_holds {a : List (Op L)} {t : Thread L} {l : L} (h : From a t) (hl : .lock l ∉ a) (hr : .rlock l ∉ a) : t.holds l = false := by
  unfold Thread.holds
  rw [Bool.or_eq_false_iff]
  constructor
  · exact (from_writes h hl).1
  · cases hc : t.held.contains (l, false) with
    | false => rfl
    | true => exact absurd (h.reads l (by simpa using hc)) hr

/-- The others' steps are the steps that they would make without the thread that rests. -/
theorem step_park {a b : List (Op L)} {t0 : Thread L} {s : List (Thread L)} {i : Nat} (h0 : From a t0)
    (hs : ∀ t, s[i]? = some t → From b t) (hc : Clear a b) : step (t0 :: s) (i + 1) = (step s i).map (t0 :: ·) := by
  unfold step
  rw [List.getElem?_cons_succ]
  cases hi : s[i]? with
  | none => rfl
  | some t =>
    have ht := hs t hi
    dsimp only
    cases hto : t.todo with
    | nil => rfl
    | cons op r =>
      have hmem := ht.todo op (by rw [hto]; simp)
      cases op with
      | work => simp
      | runlock l => dsimp only; split <;> simp
      | unlock l => dsimp only; split <;> simp
      | rlock l =>
        obtain ⟨h1, h2⟩ := from_writes h0 (fun h => ((hc l).1 h).1 hmem)
        simp only [List.any_cons, h1, h2, Bool.or_self, Bool.false_or]
        split <;> simp
      | lock l =>
        have hl : .lock l ∉ a := fun h => ((hc l).1 h).2 hmem
        obtain ⟨h1, h2⟩ := from_writes h0 hl
        have h3 := from_holds h0 hl (fun h => (hc l).2 h hmem)
        simp only [List.any_cons, h1, h2, h3, Bool.or_self, Bool.false_or]
        split
        · split <;> simp
        · split <;> simp

theorem run_park {a : List (Op L)} {f : Nat → List (Op L)} {t0 : Thread L} (h0 : From a t0) (hc : ∀ i, Clear a (f i)) {sched : List Nat} :
    ∀ {s : List (Thread L)}, (∀ j t, s[j]? = some t → From (f j) t) →
    run (t0 :: s) (sched.map (· + 1)) = (run s sched).map (t0 :: ·) := by
  induction sched with
  | nil => intro s _; rfl
  | cons i is ih =>
    intro s hs
    simp only [List.map_cons, run]
    rw [step_park h0 (hs i) (hc i)]
    cases h1 : step s i with
    | none => rfl
    | some s1 => exact ih (from_step h1 hs)

/-- A lock that is written under by a thread that rests is taken by nobody. -/
theorem written_stays {i : Nat} {t : Thread L} {l : L} (hm : (l, true) ∈ t.held) :
    ∀ {sched : List Nat} {s s' : List (Thread L)}, i ∉ sched → s[i]? = some t → run s sched = some s' →
      s'[i]? = some t ∧ ∀ (j : Nat) (u : Thread L), s[j]? = some u →
        ∃ u' : Thread L, s'[j]? = some u' ∧ u'.todo.count (.rlock l) = u.todo.count (.rlock l) := by
  intro sched
  induction sched with
  | nil =>
    intro s s' _ hi h
    simp only [run, Option.some.injEq] at h
    subst h
    exact ⟨hi, fun j u hj => ⟨u, hj, rfl⟩⟩
  | cons k is ih =>
    intro s s' hn hi h
    simp only [run] at h
    obtain ⟨s1, h1, h2⟩ := Option.bind_eq_some_iff.1 h
    obtain ⟨v, v', hk, rfl, hc⟩ := step_some h1
    have hki : k ≠ i := fun e => hn (by simp [e])
    have hi1 : (s.set k v')[i]? = some t := by rw [List.getElem?_set_ne hki]; exact hi
    obtain ⟨h3, h4⟩ := ih (fun h => hn (by simp [h])) hi1 h2
    refine ⟨h3, fun j u hj => ?_⟩
    have hcount : v'.todo.count (.rlock l) = v.todo.count (.rlock l) := by
      rcases hc with ⟨r, e1, rfl⟩ | ⟨l', r, e1, _, rfl⟩ | ⟨l', r, e1, _, rfl⟩ | ⟨l', r, e1, e2, rfl⟩ | ⟨l', r, e1, _, _, rfl⟩ | ⟨l', r, e1, _, e3, rfl⟩
      · simp [e1, List.count_cons]
      · simp [e1, List.count_cons]
      · simp [e1, List.count_cons]
      · have hne : l' ≠ l := by
          rintro rfl
          have := (e2 t (List.mem_of_getElem? hi)).1
          simp [Thread.writes, hm] at this
        simp [e1, List.count_cons, hne]
      · rfl
      · simp [e1, List.count_cons]
    by_cases hjk : k = j
    · subst hjk
      rw [hk] at hj
      injection hj with hj
      subst hj
      have hlt : k < s.length := by
        rcases Nat.lt_or_ge k s.length with h | h
        · exact h
        · rw [List.getElem?_eq_none h] at hk; cases hk
      obtain ⟨u', h5, h6⟩ := h4 k v' (by rw [List.getElem?_set_self hlt])
      exact ⟨u', h5, by rw [h6, hcount]⟩
    · obtain ⟨u', h5, h6⟩ := h4 j u (by rw [List.getElem?_set_ne hjk]; exact hj)
      exact ⟨u', h5, h6⟩

/-- A lock that is read under by a thread that rests, and that another waits to write under, is taken by nobody. -/
theorem announced_stays {i k : Nat} {t w : Thread L} {l : L} (hm : (l, false) ∈ t.held) (hw : w.announced l = true) :
    ∀ {sched : List Nat} {s s' : List (Thread L)}, i ∉ sched → s[i]? = some t → s[k]? = some w → run s sched = some s' →
      s'[i]? = some t ∧ s'[k]? = some w ∧ ∀ (j : Nat) (u : Thread L), s[j]? = some u →
        ∃ u' : Thread L, s'[j]? = some u' ∧ u'.todo.count (.rlock l) = u.todo.count (.rlock l) := by
  intro sched
  induction sched with
  | nil =>
    intro s s' _ hi hk h
    simp only [run, Option.some.injEq] at h
    subst h
    exact ⟨hi, hk, fun j u hj => ⟨u, hj, rfl⟩⟩
  | cons n is ih =>
    intro s s' hn hi hkw h
    simp only [run] at h
    obtain ⟨s1, h1, h2⟩ := Option.bind_eq_some_iff.1 h
    obtain ⟨v, v', hk, rfl, hc⟩ := step_some h1
    have hki : n ≠ i := fun e => hn (by simp [e])
    have hnk : n ≠ k := by
      rintro rfl
      rw [hkw] at hk
      injection hk with hk
      subst hk
      simp only [Thread.announced, Bool.and_eq_true, beq_iff_eq] at hw
      rcases hc with ⟨r, e1, rfl⟩ | ⟨l', r, e1, _, rfl⟩ | ⟨l', r, e1, _, rfl⟩ | ⟨l', r, e1, e2, rfl⟩ | ⟨l', r, e1, e2, _, rfl⟩ | ⟨l', r, e1, _, e3, rfl⟩
      · simp [e1] at hw
      · simp [e1] at hw
      · simp [e1] at hw
      · simp [e1] at hw
      · simp [e2] at hw
      · simp [e1] at hw
        have := e3 t (List.mem_of_getElem? hi)
        simp [Thread.holds, hw.2, hm] at this
    have hi1 : (s.set n v')[i]? = some t := by rw [List.getElem?_set_ne hki]; exact hi
    have hk1 : (s.set n v')[k]? = some w := by rw [List.getElem?_set_ne hnk]; exact hkw
    obtain ⟨h3, h3', h4⟩ := ih (fun h => hn (by simp [h])) hi1 hk1 h2
    refine ⟨h3, h3', fun j u hj => ?_⟩
    have hcount : v'.todo.count (.rlock l) = v.todo.count (.rlock l) := by
      rcases hc with ⟨r, e1, rfl⟩ | ⟨l', r, e1, _, rfl⟩ | ⟨l', r, e1, _, rfl⟩ | ⟨l', r, e1, e2, rfl⟩ | ⟨l', r, e1, _, _, rfl⟩ | ⟨l', r, e1, _, e3, rfl⟩
      · simp [e1, List.count_cons]
      · simp [e1, List.count_cons]
      · simp [e1, List.count_cons]
      · have hne : l' ≠ l := by
          rintro rfl
          have := (e2 w (List.mem_of_getElem? hkw)).2
          rw [hw] at this
          cases this
        simp [e1, List.count_cons, hne]
      · rfl
      · simp [e1, List.count_cons]
    by_cases hjk : n = j
    · subst hjk
      rw [hk] at hj
      injection hj with hj
      subst hj
      have hlt : n < s.length := by
        rcases Nat.lt_or_ge n s.length with h | h
        · exact h
        · rw [List.getElem?_eq_none h] at hk; cases hk
      obtain ⟨u', h5, h6⟩ := h4 n v' (by rw [List.getElem?_set_self hlt])
      exact ⟨u', h5, by rw [h6, hcount]⟩
    · obtain ⟨u', h5, h6⟩ := h4 j u (by rw [List.getElem?_set_ne hjk]; exact hj)
      exact ⟨u', h5, h6⟩

end FcRetrieval.RWLock
