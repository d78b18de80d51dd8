import Verif.Lemmas.RWPark
set_option linter.unusedSimpArgs false
/-!
# A thread that holds nothing and rests gets in nobody's way
-/

namespace FcRetrieval.RWLock

variable {L : Type} [DecidableEq L]

theorem step_rest {t0 : Thread L} {s : List (Thread L)} {i : Nat} (h0 : t0.held = []) (hw : t0.waiting = false) :
    step (t0 :: s) (i + 1) = (step s i).map (t0 :: ·) := by
  have h1 : ∀ l, t0.writes l = false := fun l => by simp [Thread.writes, h0]
  have h2 : ∀ l, t0.announced l = false := fun l => by simp [Thread.announced, hw]
  have h3 : ∀ l, t0.holds l = false := fun l => by simp [Thread.holds, h0]
  unfold step
  rw [List.getElem?_cons_succ]
  cases hi : s[i]? with
  | none => rfl
  | some t =>
    dsimp only
    cases hto : t.todo with
    | nil => rfl
    | cons op r =>
      cases op with
      | work => simp
      | runlock l => dsimp only; split <;> simp
      | unlock l => dsimp only; split <;> simp
      | rlock l =>
        simp only [List.any_cons, h1, h2, Bool.or_self, Bool.false_or]
        split <;> simp
      | lock l =>
        simp only [List.any_cons, h1, h2, h3, Bool.or_self, Bool.false_or]
        split
        · split <;> simp
        · split <;> simp

theorem run_rest {t0 : Thread L} (h0 : t0.held = []) (hw : t0.waiting = false) {sched : List Nat} :
    ∀ {s : List (Thread L)}, run (t0 :: s) (sched.map (· + 1)) = (run s sched).map (t0 :: ·) := by
  induction sched with
  | nil => intro s; rfl
  | cons i is ih =>
    intro s
    simp only [List.map_cons, run]
    rw [step_rest h0 hw]
    cases h1 : step s i with
    | none => rfl
    | some s1 => exact ih

/-- The locks still to be taken. -/
def takes : List (Op L) → Nat
  | [] => 0
  | .lock _ :: r | .rlock _ :: r => takes r + 1
  | .work :: r | .unlock _ :: r | .runlock _ :: r => takes r

/-- The locks still to be given back. -/
def gives : List (Op L) → Nat
  | [] => 0
  | .unlock _ :: r | .runlock _ :: r => gives r + 1
  | .work :: r | .lock _ :: r | .rlock _ :: r => gives r

theorem balance {rank : L → Nat} {free : L → Bool} : ∀ {ops : List (Op L)} {held : List (L × Bool)}, Disciplined rank free held ops = true →
    held.length + takes ops = gives ops
  | [], held, h => by
    simp only [Disciplined, List.isEmpty_iff] at h
    simp [h, takes, gives]
  | .work :: r, held, h => by
    simp only [Disciplined] at h
    exact balance (ops := r) h
  | .lock l :: r, held, h => by
    simp only [Disciplined, Bool.and_eq_true] at h
    have := balance (ops := r) h.2
    simp only [takes, gives, List.length_cons] at this ⊢
    omega
  | .rlock l :: r, held, h => by
    simp only [Disciplined, Bool.and_eq_true] at h
    have := balance (ops := r) h.2
    simp only [takes, gives, List.length_cons] at this ⊢
    omega
  | .unlock l :: r, held, h => by
    simp only [Disciplined, Bool.and_eq_true, List.contains_iff_mem] at h
    have := balance (ops := r) h.2
    rw [List.length_erase_of_mem h.1] at this
    have := List.length_pos_of_mem h.1
    simp only [takes, gives] at *
    omega
  | .runlock l :: r, held, h => by
    simp only [Disciplined, Bool.and_eq_true, List.contains_iff_mem] at h
    have := balance (ops := r) h.2
    rw [List.length_erase_of_mem h.1] at this
    have := List.length_pos_of_mem h.1
    simp only [takes, gives] at *
    omega

/-- A thread that rests, and holds only locks that the other does not take, does not change the other's steps. -/
theorem step_apart {b : List (Op L)} {t0 : Thread L} {s : List (Thread L)} {i : Nat} (hw : t0.waiting = false)
    (h0 : ∀ l, t0.holds l = true → .lock l ∉ b ∧ .rlock l ∉ b) (hs : ∀ t, s[i]? = some t → From b t) :
    step (t0 :: s) (i + 1) = (step s i).map (t0 :: ·) := by
  have h2 : ∀ l, t0.announced l = false := fun l => by simp [Thread.announced, hw]
  unfold step
  rw [List.getElem?_cons_succ]
  cases hi : s[i]? with
  | none => rfl
  | some t =>
    have ht := hs t hi
    dsimp only
    cases hto : t.todo with
    | nil => rfl
    | cons op r =>
      have hmem := ht.todo op (by rw [hto]; simp)
      cases op with
      | work => simp
      | runlock l => dsimp only; split <;> simp
      | unlock l => dsimp only; split <;> simp
      | rlock l =>
        have h3 : t0.holds l = false := by
          cases h : t0.holds l with
          | false => rfl
          | true => exact absurd hmem (h0 l h).2
        have h1 : t0.writes l = false := by
          simp only [Thread.holds, Bool.or_eq_false_iff] at h3
          exact h3.1
        simp only [List.any_cons, h1, h2, Bool.or_self, Bool.false_or]
        split <;> simp
      | lock l =>
        have h3 : t0.holds l = false := by
          cases h : t0.holds l with
          | false => rfl
          | true => exact absurd hmem (h0 l h).1
        have h1 : t0.writes l = false := by
          simp only [Thread.holds, Bool.or_eq_false_iff] at h3
          exact h3.1
        simp only [List.any_cons, h1, h2, h3, Bool.or_self, Bool.false_or]
        split
        · split <;> simp
        · split <;> simp

theorem run_apart {f : Nat → List (Op L)} {t0 : Thread L} (hw : t0.waiting = false)
    (h0 : ∀ i l, t0.holds l = true → .lock l ∉ f i ∧ .rlock l ∉ f i) {sched : List Nat} :
    ∀ {s : List (Thread L)}, (∀ j t, s[j]? = some t → From (f j) t) →
    run (t0 :: s) (sched.map (· + 1)) = (run s sched).map (t0 :: ·) := by
  induction sched with
  | nil => intro s _; rfl
  | cons i is ih =>
    intro s hs
    simp only [List.map_cons, run]
    rw [step_apart hw (h0 i) (hs i)]
    cases h1 : step s i with
    | none => rfl
    | some s1 => exact ih (from_step h1 hs)

/-- A thread that waits to write under a lock that a thread that rests reads under makes no step. -/
theorem announced_rests {i k : Nat} {t w : Thread L} {l : L} (hm : (l, false) ∈ t.held) (hw : w.announced l = true) :
    ∀ {sched : List Nat} {s s' : List (Thread L)}, i ∉ sched → s[i]? = some t → s[k]? = some w → run s sched = some s' → k ∉ sched := by
  intro sched
  induction sched with
  | nil => intro s s' _ _ _ _ h; simp at h
  | cons n is ih =>
    intro s s' hn hi hk h
    have hone : run s [n] = (step s n).bind some := by simp [run]
    simp only [run] at h
    obtain ⟨s1, h1, h2⟩ := Option.bind_eq_some_iff.1 h
    have hn1 : n ≠ k := by
      rintro rfl
      simp only [Thread.announced, Bool.and_eq_true, beq_iff_eq] at hw
      obtain ⟨hw1, hw2⟩ := hw
      unfold step at h1
      rw [hk] at h1
      dsimp only at h1
      cases hto : w.todo with
      | nil => simp [hto] at hw2
      | cons op r =>
        rw [hto] at hw2 h1
        simp only [List.head?_cons, Option.some.injEq] at hw2
        subst hw2
        dsimp only at h1
        rw [if_pos hw1, if_pos] at h1
        · cases h1
        · exact List.any_eq_true.2 ⟨t, List.mem_of_getElem? hi, by simp [Thread.holds, hm]⟩
    obtain ⟨h3, h4, _⟩ := announced_stays (s' := s1) hm hw (sched := [n]) (fun h => hn (by simp at h; simp [h])) hi hk (by simp [run, h1])
    have := ih (fun h => hn (by simp [h])) h3 h4 h2
    simp [this, Ne.symm hn1]

/-- A thread that holds one lock at a time. -/
def Single (t : Thread L) : Prop := Disciplined (fun _ => 0) (fun _ => false) t.held t.todo = true ∧ t.held.length ≤ 1

theorem single_begin {ops : List (Op L)} (h : Disciplined (fun _ => 0) (fun _ => false) [] ops = true) : Single (begin_ ops) := ⟨h, by simp [begin_]⟩

theorem single_run {i : Nat} : ∀ {sched : List Nat} {s s' : List (Thread L)}, (∀ t, s[i]? = some t → Single t) → run s sched = some s' →
    ∀ t, s'[i]? = some t → Single t := by
  intro sched
  induction sched with
  | nil =>
    intro s s' hs h
    simp only [run, Option.some.injEq] at h
    subst h; exact hs
  | cons k is ih =>
    intro s s' hs h
    simp only [run] at h
    obtain ⟨s1, h1, h2⟩ := Option.bind_eq_some_iff.1 h
    refine ih ?_ h2
    obtain ⟨v, v', hk, rfl, hc⟩ := step_some h1
    intro t ht
    by_cases hki : k = i
    · subst hki
      have hlt : k < s.length := by
        rcases Nat.lt_or_ge k s.length with h | h
        · exact h
        · rw [List.getElem?_eq_none h] at hk; cases hk
      rw [List.getElem?_set_self hlt] at ht
      injection ht with ht
      subst ht
      obtain ⟨hd, hl⟩ := hs v hk
      rcases hc with ⟨r, e1, rfl⟩ | ⟨l', r, e1, _, rfl⟩ | ⟨l', r, e1, _, rfl⟩ | ⟨l', r, e1, e2, rfl⟩ | ⟨l', r, e1, _, _, rfl⟩ | ⟨l', r, e1, _, e3, rfl⟩
      · rw [e1] at hd; exact ⟨by simpa [Disciplined] using hd, hl⟩
      · rw [e1] at hd
        simp only [Disciplined, Bool.and_eq_true] at hd
        exact ⟨hd.2, Nat.le_trans (List.length_erase_le) hl⟩
      · rw [e1] at hd
        simp only [Disciplined, Bool.and_eq_true] at hd
        exact ⟨hd.2, Nat.le_trans (List.length_erase_le) hl⟩
      · rw [e1] at hd
        simp only [Disciplined, Bool.and_eq_true, Bool.false_or, Nat.lt_irrefl, decide_false] at hd
        have h0 : v.held = [] := by
          cases hh : v.held with
          | nil => rfl
          | cons x l => rw [hh] at hd; simp at hd
        exact ⟨hd.2, by simp [h0]⟩
      · exact ⟨hd, hl⟩
      · rw [e1] at hd
        simp only [Disciplined, Bool.and_eq_true, Bool.false_or, Nat.lt_irrefl, decide_false] at hd
        have h0 : v.held = [] := by
          cases hh : v.held with
          | nil => rfl
          | cons x l => rw [hh] at hd; simp at hd
        exact ⟨hd.2, by simp [h0]⟩
    · rw [List.getElem?_set_ne hki] at ht
      exact hs t ht

/-- While it holds a lock, it does not wait for another. -/
theorem single_waits {t : Thread L} (h : Single t) (hw : t.waiting = true → ∃ l r, t.todo = .lock l :: r) (hh : t.held ≠ []) : t.waiting = false := by
  cases hwt : t.waiting with
  | false => rfl
  | true =>
    obtain ⟨l, r, e⟩ := hw hwt
    have hd := h.1
    rw [e] at hd
    simp only [Disciplined, Bool.and_eq_true, Bool.false_or, Nat.lt_irrefl, decide_false] at hd
    cases hx : t.held with
    | nil => exact absurd hx hh
    | cons x l => rw [hx] at hd; simp at hd

end FcRetrieval.RWLock
