import Verif.Model.LazyInit
/-!
# Helper lemmas for the lazy payment manager
-/

set_option linter.unusedSimpArgs false

namespace FcRetrieval.LazyInit

def critical : Pc → Bool
  | .again | .make | .store _ | .read | .unlock _ => true
  | _ => false

def PcOk (good : Bool) (w : World) : Pc → Prop
  | .look | .lock | .again => True
  | .make => w.field = none ∧ w.made = 0
  | .store m => w.field = none ∧ m = 0 ∧ w.made = 1
  | .read | .readFree => w.field = some 0
  | .unlock r | .done r => if good then r = some 0 ∧ w.field = some 0 else r = none

structure Inv (good : Bool) (n : Nat) (w : World) : Prop where
  len : w.calls.length = n
  crit : ∀ i : Nat, ∀ p, w.calls[i]? = some p → (critical p = true ↔ w.held = some i)
  held : ∀ i : Nat, w.held = some i → ∃ p, w.calls[i]? = some p
  pc : ∀ i : Nat, ∀ p, w.calls[i]? = some p → PcOk good w p
  field : w.field = none ∨ (w.field = some 0 ∧ w.made = 1 ∧ good = true)
  made : w.field = none → w.made = 0 ∨ (w.made = 1 ∧ good = true ∧ ∃ i : Nat, ∃ m, w.calls[i]? = some (.store m))

theorem inv_new (good : Bool) (n : Nat) : Inv good n (newWorld n) where
  len := by simp [newWorld]
  crit i p h := by
    simp only [newWorld, List.getElem?_replicate] at h
    split at h
    · cases h; simp [critical, newWorld]
    · cases h
  held i h := by cases h
  pc i p h := by
    simp only [newWorld, List.getElem?_replicate] at h
    split at h
    · cases h; simp [PcOk]
    · cases h
  field := .inl rfl
  made _ := .inl rfl

theorem get_set {l : List Pc} {i : Nat} {q p : Pc} (hi : l[i]? = some q) (x : Pc) (j : Nat) (h : (l.set i x)[j]? = some p) :
    (j = i ∧ p = x) ∨ (j ≠ i ∧ l[j]? = some p) := by
  rw [List.getElem?_set] at h
  split at h
  · next e =>
    subst e
    have : i < l.length := (List.getElem?_eq_some_iff.1 hi).1
    rw [if_pos this] at h
    cases h
    exact .inl ⟨rfl, rfl⟩
  · next e => exact .inr ⟨fun c => e c.symm, h⟩

theorem set_same {l : List Pc} {i : Nat} {q : Pc} (hi : l[i]? = some q) (x : Pc) : (l.set i x)[i]? = some x := by
  have : i < l.length := (List.getElem?_eq_some_iff.1 hi).1
  simp [this]

theorem inv_step {good : Bool} {n : Nat} {w : World} (h : Inv good n w) (i : Nat) : Inv good n (step good w i) := by
  have other {q x : Pc} (hq : w.calls[i]? = some q) (hs : ∀ m, q ≠ .store m) (f : w.field = none) :
      w.made = 0 ∨ (w.made = 1 ∧ good = true ∧ ∃ j : Nat, ∃ m, (w.calls.set i x)[j]? = some (.store m)) := by
    cases h.made f with
    | inl z => exact .inl z
    | inr z =>
      obtain ⟨z1, zg, j, m, z2⟩ := z
      refine .inr ⟨z1, zg, j, m, ?_⟩
      rw [List.getElem?_set]
      rw [if_neg]
      · exact z2
      · intro e
        subst e
        rw [hq] at z2
        cases z2
        exact hs m rfl
  unfold step
  split
  · exact h
  · next hq =>
    refine ⟨by simp [h.len], ?_, ?_, ?_, h.field, other hq (by simp)⟩
    · intro j p hp
      rcases get_set hq _ j hp with ⟨rfl, rfl⟩ | ⟨_, hp⟩
      · have := h.crit j _ hq
        simp only [critical] at this
        split <;> simp only [critical] <;> exact this
      · exact h.crit j p hp
    · intro j hj
      have ⟨p, hp⟩ := h.held j hj
      rw [List.getElem?_set]
      split
      · next e => subst e; simp [(List.getElem?_eq_some_iff.1 hq).1]
      · exact ⟨p, hp⟩
    · intro j p hp
      rcases get_set hq _ j hp with ⟨rfl, rfl⟩ | ⟨_, hp⟩
      · split
        · trivial
        · next e => exact (h.field.resolve_left e).1
      · exact h.pc j p hp
  · next hq =>
    split
    · next hh =>
      refine ⟨by simp [h.len], ?_, ?_, ?_, h.field, other hq (by simp)⟩
      · intro j p hp
        rcases get_set hq _ j hp with ⟨rfl, rfl⟩ | ⟨hne, hp⟩
        · simp [critical]
        · have := h.crit j p hp
          rw [hh] at this
          simp only [Option.some.injEq]
          constructor
          · intro c; exact absurd (this.1 c) (by simp)
          · intro c; exact absurd c.symm hne
      · intro j hj
        cases hj
        exact ⟨_, set_same hq _⟩
      · intro j p hp
        rcases get_set hq _ j hp with ⟨rfl, rfl⟩ | ⟨_, hp⟩
        · trivial
        · exact h.pc j p hp
    · exact h
  · next hq =>
    have mine : w.held = some i := (h.crit i _ hq).1 rfl
    refine ⟨by simp [h.len], ?_, ?_, ?_, h.field, other hq (by simp)⟩
    · intro j p hp
      rcases get_set hq _ j hp with ⟨rfl, rfl⟩ | ⟨_, hp⟩
      · split <;> simp [critical, mine]
      · exact h.crit j p hp
    · intro j hj
      rw [mine] at hj
      cases hj
      exact ⟨_, set_same hq _⟩
    · intro j p hp
      rcases get_set hq _ j hp with ⟨rfl, rfl⟩ | ⟨_, hp⟩
      · split
        · next e =>
          refine ⟨e, ?_⟩
          cases h.made e with
          | inl z => exact z
          | inr z =>
            obtain ⟨_, _, k, m, z⟩ := z
            have := (h.crit k _ z).1 rfl
            rw [mine] at this
            cases this
            rw [hq] at z
            cases z
        · next e => exact (h.field.resolve_left e).1
      · exact h.pc j p hp
  · next hq =>
    have mine : w.held = some i := (h.crit i _ hq).1 rfl
    have ⟨hf, hm⟩ := h.pc i _ hq
    split
    · next hg =>
      refine ⟨by simp [h.len], ?_, ?_, ?_, .inl hf, ?_⟩
      · intro j p hp
        rcases get_set hq _ j hp with ⟨rfl, rfl⟩ | ⟨_, hp⟩
        · simp [critical, mine]
        · exact h.crit j p hp
      · intro j hj
        simp only at hj
        rw [mine] at hj
        cases hj
        exact ⟨_, set_same hq _⟩
      · intro j p hp
        rcases get_set hq _ j hp with ⟨rfl, rfl⟩ | ⟨hne, hp⟩
        · exact ⟨hf, hm, by simp [hm]⟩
        · have hc : critical p = false := by
            cases hcp : critical p with
            | false => rfl
            | true =>
              have := (h.crit j p hp).1 hcp
              rw [mine] at this
              cases this
              exact absurd rfl hne
          have := h.pc j p hp
          cases p <;> simp_all [PcOk, critical]
      · intro _
        exact .inr ⟨by simp [hm], hg, i, _, set_same hq _⟩
    · next hg =>
      have hg : good = false := by simpa using hg
      refine ⟨by simp [h.len], ?_, ?_, ?_, .inl hf, fun _ => .inl hm⟩
      · intro j p hp
        rcases get_set hq _ j hp with ⟨rfl, rfl⟩ | ⟨_, hp⟩
        · simp [critical, mine]
        · exact h.crit j p hp
      · intro j hj
        simp only at hj
        rw [mine] at hj
        cases hj
        exact ⟨_, set_same hq _⟩
      · intro j p hp
        rcases get_set hq _ j hp with ⟨rfl, rfl⟩ | ⟨hne, hp⟩
        · simp [PcOk, hg]
        · exact h.pc j p hp
  · next m hq =>
    have mine : w.held = some i := (h.crit i _ hq).1 rfl
    have ⟨hf, hm, hmade⟩ := h.pc i _ hq
    have hg : good = true := by
      cases h.made hf with
      | inl z => omega
      | inr z => exact z.2.1
    refine ⟨by simp [h.len], ?_, ?_, ?_, .inr ⟨by simp [hm], hmade, hg⟩, (fun c => nomatch c)⟩
    · intro j p hp
      rcases get_set hq _ j hp with ⟨rfl, rfl⟩ | ⟨_, hp⟩
      · simp [critical, mine]
      · exact h.crit j p hp
    · intro j hj
      simp only at hj
      rw [mine] at hj
      cases hj
      exact ⟨_, set_same hq _⟩
    · intro j p hp
      rcases get_set hq _ j hp with ⟨rfl, rfl⟩ | ⟨hne, hp⟩
      · simp [PcOk, hm]
      · have hc : critical p = false := by
          cases hcp : critical p with
          | false => rfl
          | true =>
            have := (h.crit j p hp).1 hcp
            rw [mine] at this
            cases this
            exact absurd rfl hne
        have := h.pc j p hp
        cases p <;> simp_all [PcOk, critical]
  · next hq =>
    have mine : w.held = some i := (h.crit i _ hq).1 rfl
    have hf : w.field = some 0 := h.pc i _ hq
    refine ⟨by simp [h.len], ?_, ?_, ?_, h.field, other hq (by simp)⟩
    · intro j p hp
      rcases get_set hq _ j hp with ⟨rfl, rfl⟩ | ⟨_, hp⟩
      · simp [critical, mine]
      · exact h.crit j p hp
    · intro j hj
      simp only at hj
      rw [mine] at hj
      cases hj
      exact ⟨_, set_same hq _⟩
    · intro j p hp
      rcases get_set hq _ j hp with ⟨rfl, rfl⟩ | ⟨hne, hp⟩
      · have hg : good = true := by
          cases h.field with
          | inl z => rw [hf] at z; cases z
          | inr z => exact z.2.2
        simp [PcOk, hg, hf]
      · exact h.pc j p hp
  · next hq =>
    have hf : w.field = some 0 := h.pc i _ hq
    refine ⟨by simp [h.len], ?_, ?_, ?_, h.field, other hq (by simp)⟩
    · intro j p hp
      rcases get_set hq _ j hp with ⟨rfl, rfl⟩ | ⟨_, hp⟩
      · have := h.crit j _ hq
        simp only [critical] at this ⊢
        exact this
      · exact h.crit j p hp
    · intro j hj
      have ⟨p, hp⟩ := h.held j hj
      rw [List.getElem?_set]
      split
      · next e => subst e; simp [(List.getElem?_eq_some_iff.1 hq).1]
      · exact ⟨p, hp⟩
    · intro j p hp
      rcases get_set hq _ j hp with ⟨rfl, rfl⟩ | ⟨hne, hp⟩
      · have hg : good = true := by
          cases h.field with
          | inl z => rw [hf] at z; cases z
          | inr z => exact z.2.2
        simp [PcOk, hg, hf]
      · exact h.pc j p hp
  · next r hq =>
    have mine : w.held = some i := (h.crit i _ hq).1 rfl
    refine ⟨by simp [h.len], ?_, (fun _ c => nomatch c), ?_, h.field, other hq (by simp)⟩
    · intro j p hp
      rcases get_set hq _ j hp with ⟨rfl, rfl⟩ | ⟨hne, hp⟩
      · simp [critical]
      · have := h.crit j p hp
        rw [mine] at this
        constructor
        · intro c; exact absurd (Option.some.inj (this.1 c)).symm hne
        · intro c; cases c
    · intro j p hp
      rcases get_set hq _ j hp with ⟨rfl, rfl⟩ | ⟨hne, hp⟩
      · exact h.pc j _ hq
      · exact h.pc j p hp
  · exact h

theorem inv_run {good : Bool} {n : Nat} {w : World} (h : Inv good n w) (s : List Nat) : Inv good n (run good w s) := by
  induction s generalizing w with
  | nil => exact h
  | cons i s ih => exact ih (inv_step h i)

theorem inv_reach (good : Bool) (n : Nat) (s : List Nat) : Inv good n (run good (newWorld n) s) := inv_run (inv_new good n) s

/-! ## Every call can finish -/

def left : Pc → Nat
  | .look => 7
  | .lock => 6
  | .again => 5
  | .make => 4
  | .store _ => 3
  | .read => 2
  | .readFree => 2
  | .unlock _ => 1
  | .done _ => 0

def todo (w : World) : Nat := (w.calls.map left).sum

theorem todo_set {l : List Pc} {i : Nat} {q : Pc} (hi : l[i]? = some q) (x : Pc) (hx : left x < left q) :
    ((l.set i x).map left).sum < (l.map left).sum := by
  induction l generalizing i with
  | nil => cases hi
  | cons a l ih =>
    cases i with
    | zero =>
      simp only [List.getElem?_cons_zero, Option.some.injEq] at hi
      subst hi
      simp only [List.set_cons_zero, List.map_cons, List.sum_cons]
      omega
    | succ i =>
      simp only [List.getElem?_cons_succ] at hi
      have := ih hi
      simp only [List.set_cons_succ, List.map_cons, List.sum_cons]
      omega

theorem step_todo (good : Bool) (w : World) (i : Nat) : step good w i = w ∨ todo (step good w i) < todo w := by
  unfold step
  split
  · exact .inl rfl
  · next hq => right; apply todo_set hq; split <;> simp [left]
  · next hq =>
    split
    · right; apply todo_set hq; simp [left]
    · exact .inl rfl
  · next hq => right; apply todo_set hq; split <;> simp [left]
  · next hq => right; split <;> (apply todo_set hq; simp [left])
  · next hq => right; apply todo_set hq; simp [left]
  · next hq => right; apply todo_set hq; simp [left]
  · next hq => right; apply todo_set hq; simp [left]
  · next hq => right; apply todo_set hq; simp [left]
  · exact .inl rfl

theorem step_moves (good : Bool) (w : World) (i : Nat) {p : Pc} (hp : w.calls[i]? = some p) (hd : ∀ r, p ≠ .done r)
    (hl : p = .lock → w.held = none) : todo (step good w i) < todo w := by
  cases p with
  | look => unfold step; rw [hp]; apply todo_set hp; split <;> simp [left]
  | lock => unfold step; rw [hp]; simp only [hl rfl, if_pos]; apply todo_set hp; simp [left]
  | again => unfold step; rw [hp]; apply todo_set hp; split <;> simp [left]
  | make => unfold step; rw [hp]; simp only; split <;> (apply todo_set hp; simp [left])
  | store m => unfold step; rw [hp]; apply todo_set hp; simp [left]
  | read => unfold step; rw [hp]; apply todo_set hp; simp [left]
  | readFree => unfold step; rw [hp]; apply todo_set hp; simp [left]
  | unlock r => unfold step; rw [hp]; apply todo_set hp; simp [left]
  | done r => exact absurd rfl (hd r)

theorem someone_moves {good : Bool} {n : Nat} {w : World} (h : Inv good n w) (i : Nat) {p : Pc} (hp : w.calls[i]? = some p)
    (hd : ∀ r, p ≠ .done r) : ∃ j, todo (step good w j) < todo w := by
  by_cases hl : p = .lock → w.held = none
  · exact ⟨i, step_moves good w i hp hd hl⟩
  · cases hh : w.held with
    | none => exact absurd (fun _ => hh) hl
    | some j =>
      have ⟨q, hq⟩ := h.held j hh
      have hc : critical q = true := (h.crit j q hq).2 hh
      refine ⟨j, step_moves good w j hq ?_ ?_⟩
      · intro r e; subst e; cases hc
      · intro e; subst e; cases hc

theorem finish {good : Bool} {n : Nat} (k : Nat) {w : World} (h : Inv good n w) (hk : todo w ≤ k) :
    ∃ t : List Nat, t.length ≤ k ∧ ∀ i : Nat, ∀ p, (run good w t).calls[i]? = some p → ∃ r, p = .done r := by
  induction k generalizing w with
  | zero =>
    refine ⟨[], Nat.le_refl _, ?_⟩
    intro i p hp
    change w.calls[i]? = some p at hp
    by_cases hd : ∃ r, p = .done r
    · exact hd
    · have ⟨j, hj⟩ := someone_moves h i hp (fun r e => hd ⟨r, e⟩)
      omega
  | succ k ih =>
    by_cases all : ∀ i : Nat, ∀ p, w.calls[i]? = some p → ∃ r, p = .done r
    · exact ⟨[], Nat.zero_le _, all⟩
    · simp only [Classical.not_forall] at all
      obtain ⟨i, p, hp, hd⟩ := all
      have ⟨j, hj⟩ := someone_moves h i hp (fun r e => hd ⟨r, e⟩)
      have ⟨t, ht, hall⟩ := ih (inv_step h j) (by omega)
      exact ⟨j :: t, by simp; omega, hall⟩

theorem todo_new (n : Nat) : todo (newWorld n) = 7 * n := by
  simp [todo, newWorld, left, Nat.mul_comm]

theorem todo_run (good : Bool) (w : World) (s : List Nat) : todo (run good w s) ≤ todo w := by
  induction s generalizing w with
  | nil => exact Nat.le_refl _
  | cons i s ih =>
    have := ih (step good w i)
    have h := step_todo good w i
    change todo (run good (step good w i) s) ≤ _
    cases h with
    | inl e => rw [e] at this ⊢; exact this
    | inr e => omega

end FcRetrieval.LazyInit
