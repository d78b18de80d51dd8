import Verif.Spec.Ring
/-! Helper lemmas: lists, distances, hex values. -/

namespace FcRetrieval.Ring

section Lists
variable {α : Type}

theorem consecutive_tail {R : α → α → Prop} {a : α} {l : List α} (h : Consecutive R (a :: l)) :
    Consecutive R l := by
  cases l with
  | nil => trivial
  | cons b l => exact h.2

theorem consecutive_append {R : α → α → Prop} : ∀ {l₁ l₂ : List α},
    Consecutive R (l₁ ++ l₂) ↔ Consecutive R l₁ ∧ Consecutive R l₂ ∧
      ∀ a b, l₁.getLast? = some a → l₂.head? = some b → R a b
  | [], l₂ => by simp [Consecutive]
  | [x], [] => by simp [Consecutive]
  | [x], y :: l₂ => by
    simp only [List.cons_append, List.nil_append, Consecutive, List.getLast?_singleton, List.head?_cons,
      Option.some.injEq]
    constructor
    · rintro ⟨h, h'⟩; exact ⟨trivial, h', by rintro _ _ rfl rfl; exact h⟩
    · rintro ⟨_, h', h⟩; exact ⟨h _ _ rfl rfl, h'⟩
  | x :: y :: l₁, l₂ => by
    have ih := consecutive_append (R := R) (l₁ := y :: l₁) (l₂ := l₂)
    simp only [List.cons_append, Consecutive] at ih ⊢
    rw [ih, List.getLast?_cons_cons]
    grind

theorem consecutive_mono {R R' : α → α → Prop} : ∀ {l : List α},
    (∀ a ∈ l.dropLast, ∀ b ∈ l.tail, R a b → R' a b) → Consecutive R l → Consecutive R' l
  | [], _, _ => trivial
  | [_], _, _ => trivial
  | a :: b :: l, h, hc => by
    refine ⟨h a (by simp) b (by simp) hc.1, consecutive_mono (l := b :: l) ?_ hc.2⟩
    intro x hx y hy
    refine h x ?_ y ?_
    · simp only [List.dropLast_cons_cons]; exact List.mem_cons_of_mem _ hx
    · simp only [List.tail_cons] at hy ⊢; exact List.mem_cons_of_mem _ hy

theorem getLast_not_mem_dropLast {l : List α} (hn : l.Nodup) {a : α} (h : l.getLast? = some a) :
    a ∉ l.dropLast := by
  obtain ⟨l', rfl⟩ := List.getLast?_eq_some_iff.mp h
  rw [List.dropLast_concat]
  rw [List.nodup_append] at hn
  intro hm
  exact hn.2.2 a hm a (by simp) rfl

theorem head_not_mem_tail {l : List α} (hn : l.Nodup) {a : α} (h : l.head? = some a) : a ∉ l.tail := by
  cases l with
  | nil => simp at h
  | cons b l => simp only [List.head?_cons, Option.some.injEq] at h; subst h; simpa using (List.nodup_cons.mp hn).1

theorem nodup_length_le : ∀ (n : Nat) (l : List Nat), l.Nodup → (∀ a ∈ l, a < n) → l.length ≤ n
  | 0, l, _, h => by
    cases l with
    | nil => simp
    | cons a l => exact absurd (h a (by simp)) (by omega)
  | n + 1, l, hn, h => by
    have h1 : (l.erase n).length ≤ n := by
      apply nodup_length_le n _ (hn.erase n)
      intro a ha
      have h2 := (List.Nodup.mem_erase_iff hn).mp ha
      have := h a h2.2
      omega
    have := List.length_erase (a := n) (l := l)
    split at this <;> omega

end Lists

theorem digitVal_lt {c : Char} {d : Nat} (h : digitVal c = some d) : d < 16 := by
  unfold digitVal at h
  have e1 : ('0' : Char).toNat = 48 := by decide
  split at h
  · rename_i hc
    have : c.toNat ≤ 57 := hc.2
    simp at h; omega
  · split at h
    · rename_i hc
      have : c.toNat ≤ 70 := hc.2
      simp at h; omega
    · split at h
      · rename_i hc
        have : c.toNat ≤ 102 := hc.2
        simp at h; omega
      · simp at h

theorem keyOf_foldl_lt (hex : Hex) (acc : Nat) :
    hex.foldl (fun acc c => 16 * acc + (digitVal c).getD 0) acc < 16 ^ hex.length * (acc + 1) := by
  induction hex generalizing acc with
  | nil => simp
  | cons c cs ih =>
    simp only [List.foldl_cons, List.length_cons]
    have hd : (digitVal c).getD 0 < 16 := by
      cases h : digitVal c with
      | none => simp
      | some d => simpa using digitVal_lt h
    refine Nat.lt_of_lt_of_le (ih _) ?_
    rw [Nat.pow_succ, Nat.mul_assoc]
    apply Nat.mul_le_mul_left
    omega

theorem keyOf_lt {x : Hex} (h : validateInput x = true) : keyOf x < 2 ^ 256 := by
  simp only [validateInput, Bool.and_eq_true, beq_iff_eq] at h
  have := keyOf_foldl_lt x 0
  rw [h.1] at this
  have e : (16 : Nat) ^ 64 * (0 + 1) = 2 ^ 256 := by decide
  rw [e] at this
  exact this

theorem getDist_eq_cw {a b : Nat} (ha : a < 2 ^ 256) (hb : b < 2 ^ 256) (h : a ≠ b) : getDist a b = cw a b := by
  unfold getDist cw
  split
  · have : b + 2 ^ 256 - a = (b - a) + 2 ^ 256 := by omega
    rw [this, Nat.add_mod_right, Nat.mod_eq_of_lt (by omega)]
  · rw [Nat.mod_eq_of_lt (by omega)]; omega

end FcRetrieval.Ring
