import Verif.Spec.Identity
/-!
# Invariant of the identity when requests keep apart
-/
set_option linter.unusedSimpArgs false

namespace FcRetrieval.Identity

/-- What a request in the middle of reading has read belongs to this identity. -/
def Thread.reads (b : Ident) : Thread → Prop
  | .named i => i = b.id
  | .keyed i k => i = b.id ∧ k = b.key
  | _ => True

/-- The first `k` fields are the new ones. -/
def mix (n b : Ident) : Nat → Cells
  | 0 => .of b
  | 1 => { id := some n.id, key := some b.key, ver := some b.ver }
  | 2 => { id := some n.id, key := some n.key, ver := some b.ver }
  | _ => .of n

structure Inv (S : List Ident) (s : State) : Prop where
  sets : ∀ n k, .setter n k ∈ s.threads → n ∈ S
  sent : ∀ m, .sent m ∈ s.threads → m ∈ S
  alive : .crashed ∉ s.threads ∧ .refused ∉ s.threads
  cells : ∃ b ∈ S, ((∀ t ∈ s.threads, t.writing = false ∧ t.reads b) ∧ s.cells = .of b) ∨
    ∃ (j : Nat) (n : Ident) (k : Nat), s.threads[j]? = some (.setter n k) ∧ (k = 1 ∨ k = 2) ∧ s.cells = mix n b k ∧
      ∀ (i : Nat) (u : Thread), i ≠ j → s.threads[i]? = some u → u.writing = false ∧ u.reading = false

theorem reads_of_not_reading {t : Thread} {b : Ident} (h : t.reading = false) : t.reads b := by
  cases t <;> simp [Thread.reading, Thread.reads] at h ⊢

theorem writing_setter {n : Ident} {k : Nat} : (Thread.setter n k).writing = false ↔ k ≠ 1 ∧ k ≠ 2 := by
  simp [Thread.writing]

/-- A step that keeps the fields. -/
theorem inv_quiet {S : List Ident} {s : State} (h : Inv S s) (i : Nat) (t' : Thread) (b : Ident) (hb : b ∈ S)
    (hall : ∀ t ∈ s.threads, t.writing = false ∧ t.reads b) (hc : s.cells = .of b) (hs : ∀ n k, t' = .setter n k → n ∈ S)
    (hm : ∀ m, t' = .sent m → m ∈ S) (ha : t' ≠ .crashed ∧ t' ≠ .refused) (hw : t'.writing = false ∧ t'.reads b) :
    Inv S { cells := s.cells, threads := s.threads.set i t' } := by
  have hin : ∀ t, t ∈ s.threads.set i t' → t ∈ s.threads ∨ t = t' := fun t ht => List.mem_or_eq_of_mem_set ht
  refine ⟨fun n k ht => ?_, fun m ht => ?_, ⟨fun ht => ?_, fun ht => ?_⟩, b, hb, .inl ⟨fun t ht => ?_, hc⟩⟩
  · rcases hin _ ht with h' | h'
    · exact h.sets n k h'
    · exact hs n k h'.symm
  · rcases hin _ ht with h' | h'
    · exact h.sent m h'
    · exact hm m h'.symm
  · rcases hin _ ht with h' | h'
    · exact h.alive.1 h'
    · exact ha.1 h'.symm
  · rcases hin _ ht with h' | h'
    · exact h.alive.2 h'
    · exact ha.2 h'.symm
  · rcases hin _ ht with h' | h'
    · exact hall t h'
    · rw [h']; exact hw

theorem set_self {s : State} {i : Nat} {t : Thread} (h : s.threads[i]? = some t) : s.threads.set i t = s.threads := by
  apply List.ext_getElem?
  intro j
  rw [List.getElem?_set]
  split
  · rename_i e
    subst e
    rw [if_pos (List.getElem?_eq_some_iff.1 h).1, h]
  · rfl

theorem inv_step {S : List Ident} {s : State} (h : Inv S s) (i : Nat) (ha : Apart s i) : Inv S (step s i) := by
  unfold step
  cases ht : s.threads[i]? with
  | none => exact h
  | some t =>
    have hmem := List.mem_of_getElem? ht
    have hl : i < s.threads.length := (List.getElem?_eq_some_iff.1 ht).1
    dsimp only
    obtain ⟨b, hb, ⟨hall, hc⟩ | ⟨j, n, k, hj, hk, hc, hoth⟩⟩ := h.cells
    · have hq := inv_quiet h i
      cases t with
      | setter n k =>
        have hn := h.sets n k hmem
        have hw := writing_setter.1 (hall _ hmem).1
        match k, hw with
        | 0, _ =>
          refine ⟨fun n' k' ht' => ?_, fun m ht' => ?_, ⟨fun ht' => ?_, fun ht' => ?_⟩, b, hb, .inr ⟨i, n, 1, ?_, .inl rfl, ?_, ?_⟩⟩
          · rcases List.mem_or_eq_of_mem_set ht' with h' | h'
            · exact h.sets n' k' h'
            · simp only [act, Thread.setter.injEq] at h'
              rw [h'.1]; exact hn
          · rcases List.mem_or_eq_of_mem_set ht' with h' | h'
            · exact h.sent m h'
            · simp only [act, reduceCtorEq] at h'
          · rcases List.mem_or_eq_of_mem_set ht' with h' | h'
            · exact h.alive.1 h'
            · simp only [act, reduceCtorEq] at h'
          · rcases List.mem_or_eq_of_mem_set ht' with h' | h'
            · exact h.alive.2 h'
            · simp only [act, reduceCtorEq] at h'
          · dsimp only
            rw [List.getElem?_set_self hl]
            rfl
          · simp only [act, hc, Cells.of, mix]
          · intro x u hx hu
            dsimp only at hu
            rw [List.getElem?_set_ne (Ne.symm hx)] at hu
            have := ha x _ u ht hu hx
            exact ⟨this.1, this.2 rfl⟩
        | k + 3, _ =>
          have e : act s.cells (.setter n (k + 3)) = (s.cells, .setter n (k + 3)) := rfl
          rw [e]
          dsimp only
          rw [set_self ht]
          exact h
        | 1, hw => exact absurd rfl hw.1
        | 2, hw => exact absurd rfl hw.2
      | admin =>
        simp only [act, hc, Cells.of, Option.isNone_some, Bool.false_eq_true, ↓reduceIte]
        have := hq .start b hb hall hc (by simp) (by simp) (by simp) (by simp [Thread.writing, Thread.reads])
        rw [hc] at this
        exact this
      | start =>
        simp only [act, hc, Cells.of]
        have := hq (.named b.id) b hb hall hc (by simp) (by simp) (by simp) (by simp [Thread.writing, Thread.reads])
        rw [hc] at this
        exact this
      | named x =>
        simp only [act, hc, Cells.of]
        have hr := (hall _ hmem).2
        have := hq (.keyed x b.key) b hb hall hc (by simp) (by simp) (by simp) ⟨rfl, hr, rfl⟩
        rw [hc] at this
        exact this
      | keyed x y =>
        simp only [act, hc, Cells.of]
        obtain ⟨h1, h2⟩ := (hall _ hmem).2
        have := hq (.sent ⟨x, y, b.ver⟩) b hb hall hc (by simp) (fun m hm => by
          cases hm; rw [h1, h2]; exact hb) (by simp) ⟨rfl, trivial⟩
        rw [hc] at this
        exact this
      | sent m => simp only [act]; rw [set_self ht]; exact h
      | refused => exact absurd hmem h.alive.2
      | crashed => exact absurd hmem h.alive.1
    · by_cases hij : i = j
      · subst hij
        rw [ht] at hj
        cases hj
        have hn := h.sets n k hmem
        have hrest : ∀ (t' : Thread), t' ∈ s.threads.set i (.setter n (k + 1)) →
            t' ∈ s.threads ∨ t' = .setter n (k + 1) := fun t' h' => List.mem_or_eq_of_mem_set h'
        have hact : (act s.cells (.setter n k)).2 = .setter n (k + 1) := by
          rcases hk with rfl | rfl <;> rfl
        rw [hact]
        refine ⟨fun n' k' ht' => ?_, fun m ht' => ?_, ⟨fun ht' => ?_, fun ht' => ?_⟩, ?_⟩
        · rcases hrest _ ht' with h' | h'
          · exact h.sets n' k' h'
          · cases h'; exact hn
        · rcases hrest _ ht' with h' | h'
          · exact h.sent m h'
          · cases h'
        · rcases hrest _ ht' with h' | h'
          · exact h.alive.1 h'
          · cases h'
        · rcases hrest _ ht' with h' | h'
          · exact h.alive.2 h'
          · cases h'
        · rcases hk with rfl | rfl
          · refine ⟨b, hb, .inr ⟨i, n, 2, ?_, .inr rfl, ?_, fun x u hx hu => ?_⟩⟩
            · dsimp only; rw [List.getElem?_set_self hl]
            · simp only [act, hc, mix]
            · dsimp only at hu
              rw [List.getElem?_set_ne (Ne.symm hx)] at hu
              exact hoth x u hx hu
          · refine ⟨n, hn, .inl ⟨fun t' ht' => ?_, ?_⟩⟩
            · obtain ⟨x, hx⟩ := List.mem_iff_getElem?.1 ht'
              dsimp only at hx
              by_cases hxi : x = i
              · subst hxi
                rw [List.getElem?_set_self hl] at hx
                cases hx
                exact ⟨rfl, trivial⟩
              · rw [List.getElem?_set_ne (Ne.symm hxi)] at hx
                have := hoth x t' hxi hx
                exact ⟨this.1, reads_of_not_reading this.2⟩
            · simp only [act, hc, mix, Cells.of]
      · have := (ha j t _ ht hj (Ne.symm hij)).1
        rw [writing_setter] at this
        omega

theorem inv_run {S : List Ident} {s : State} (h : Inv S s) (l : List Nat) (ha : AllApart s l) : Inv S (run s l) := by
  induction l generalizing s with
  | nil => exact h
  | cons i l ih => exact ih (inv_step h i ha.1) ha.2

end FcRetrieval.Identity
