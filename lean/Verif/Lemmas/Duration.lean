import Verif.Spec.Duration
import Verif.Lemmas.Config
/-!
# Durations with decimal fractions
-/
set_option linter.unusedSimpArgs false

namespace FcRetrieval.Config

theorem digits_lt {s : List Char} {n : Nat} (h : Digits 10 s n) : n < 10 ^ s.length := by
  induction h with
  | one d h1 h2 => simpa using h2
  | more s n d _ h1 h2 ih =>
    rw [List.length_append, List.length_singleton, Nat.pow_succ]
    omega

theorem leadingFraction_digits {s : List Char} {n : Nat} (h : Digits 10 s n) (hn : n < 2 ^ 63) (rest : List Char) :
    leadingFraction (s ++ rest) 0 0 false = leadingFraction rest n s.length false := by
  induction h generalizing rest with
  | one d h1 h2 =>
    obtain ⟨-, e1, -, -, e2, -⟩ := digitChar_facts d h2
    rw [List.singleton_append, leadingFraction, if_pos e2, e1, if_neg (by simp only [Bool.false_eq_true, false_or]; omega)]
    simp
  | more s n d _ h1 h2 ih =>
    obtain ⟨-, e1, -, -, e2, -⟩ := digitChar_facts d h2
    rw [List.append_assoc, ih (by omega), List.singleton_append, leadingFraction, if_pos e2, e1,
      if_neg (by simp only [Bool.false_eq_true, false_or]; omega)]
    simp

/-- What follows a unit: nothing, a digit or a point. -/
def EndsUnit (s : List Char) : Prop := s = [] ∨ ∃ c t, s = c :: t ∧ (c = '.' ∨ isDigit c = true)

theorem unit_split {u t : List Char} {k : Nat} (hu : (u, k) ∈ units) (ht : EndsUnit t) :
    (u ++ t).takeWhile (fun c => !(c = '.' || isDigit c)) = u ∧ (u ++ t).dropWhile (fun c => !(c = '.' || isDigit c)) = t := by
  obtain ⟨-, -, -, u4, -⟩ := unit_facts hu
  have h1 : t.takeWhile (fun c => !(c = '.' || isDigit c)) = [] ∧ t.dropWhile (fun c => !(c = '.' || isDigit c)) = t := by
    rcases ht with rfl | ⟨x, y, rfl, hx⟩
    · exact ⟨rfl, rfl⟩
    · exact ⟨List.takeWhile_cons_of_neg (by rcases hx with rfl | hx <;> simp [*]), List.dropWhile_cons_of_neg (by rcases hx with rfl | hx <;> simp [*])⟩
  rw [List.takeWhile_append_of_pos u4, List.dropWhile_append_of_pos u4, h1.1, h1.2]
  simp

theorem unit_small {u : List Char} {k : Nat} (h : (u, k) ∈ units) : k < 2 ^ 53 := by
  simp only [units, List.mem_cons, List.not_mem_nil, or_false, Prod.mk.injEq] at h
  rcases h with ⟨rfl, rfl⟩ | ⟨rfl, rfl⟩ | ⟨rfl, rfl⟩ | ⟨rfl, rfl⟩ | ⟨rfl, rfl⟩ | ⟨rfl, rfl⟩ <;> decide

/-- A fraction is less than its unit. -/
theorem frac_lt {f : List Char} {m k : Nat} (h : Digits 10 f m) (hk : 10 ^ f.length ∣ k) (h0 : 0 < k) :
    m * (k / 10 ^ f.length) < k ∧ m < k := by
  have hm := digits_lt h
  obtain ⟨q, rfl⟩ := hk
  have hp : 0 < 10 ^ f.length := Nat.pow_pos (by decide)
  rw [Nat.mul_div_cancel_left q hp]
  have hq : 0 < q := by
    rcases Nat.eq_zero_or_pos q with h | h
    · subst h; simp at h0
    · exact h
  exact ⟨Nat.mul_lt_mul_of_pos_right hm hq, Nat.lt_of_lt_of_le hm (Nat.le_mul_of_pos_right _ hq)⟩

theorem fraction_read {f u t : List Char} {m k : Nat} (h : Digits 10 f m) (hk : 10 ^ f.length ∣ k) (hu : (u, k) ∈ units) :
    leadingFraction (f ++ (u ++ t)) 0 0 false = (m, f.length, u ++ t) ∧ f ++ (u ++ t) ≠ u ++ t := by
  obtain ⟨-, h0, -, -, c, u', rfl, u5, -⟩ := unit_facts hu
  have hs := unit_small hu
  have := (frac_lt h hk h0).2
  refine ⟨?_, fun e => ?_⟩
  · rw [leadingFraction_digits h (by omega), List.cons_append, leadingFraction, if_neg (by simp [u5])]
  · have hl := congrArg List.length e
    obtain ⟨d, f', -, rfl⟩ := digits_head h
    simp at hl
    omega

/-- One number with its unit. -/
theorem durations_amount (frac : Nat → Nat → Nat → Nat) (hf : FloatExact frac) {s u t : List Char} {n k d fuel : Nat}
    (h : Amount k s n) (hu : (u, k) ∈ units) (ht : EndsUnit t) (hn : n + d < 2 ^ 63) :
    durations frac (fuel + 1) (s ++ u ++ t) d = durations frac fuel t (d + n) := by
  obtain ⟨u1, u2, u3, -, c, u', hcu, u5, u6⟩ := unit_facts hu
  obtain ⟨t1, t2⟩ := unit_split hu ht
  have hks := unit_small hu
  have hpart : ∀ (f : List Char) (m : Nat), Digits 10 f m → 10 ^ f.length ∣ k →
      (if 0 < m then frac m f.length k else 0) = m * (k / 10 ^ f.length) := by
    intro f m hm hk
    obtain ⟨h1, h2⟩ := frac_lt hm hk u2
    by_cases h0 : 0 < m
    · rw [if_pos h0, hf m f.length k hk hks (by omega) (by omega)]
    · have : m = 0 := by omega
      rw [if_neg h0, this]; simp
  cases h with
  | whole s n hs =>
    obtain ⟨e, s', he, rfl⟩ := digits_head hs
    obtain ⟨-, -, -, -, e1, -⟩ := digitChar_facts e he
    have hnk : n ≤ n * k := Nat.le_mul_of_pos_right n u2
    have hl : leadingInt (Nat.digitChar e :: (s' ++ (u ++ t))) 0 = some (n, u ++ t) := by
      have := leadingInt_digits hs (by omega) (u ++ t)
      rw [List.cons_append] at this
      rw [this, hcu, List.cons_append, leadingInt, if_neg (by simp [u5])]
    rw [List.append_assoc, List.cons_append, durations, if_neg (by simp [e1]), hl]
    subst hcu
    simp only [List.cons_append] at t1 t2 ⊢
    simp only [e1, u6, if_false, t1, t2, u1, Bool.true_eq_false, false_and, reduceCtorEq]
    rw [if_neg]
    · simp only [Nat.lt_irrefl, if_false, Nat.add_zero]
      rw [if_neg (by omega), if_neg (by omega)]
    · have : n ≤ (2 ^ 63 - 1) / k := (Nat.le_div_iff_mul_le u2).2 (by omega)
      omega
  | decimal s f n m hs hm hk =>
    obtain ⟨e, s', he, rfl⟩ := digits_head hs
    obtain ⟨-, -, -, -, e1, -⟩ := digitChar_facts e he
    have hnk : n ≤ n * k := Nat.le_mul_of_pos_right n u2
    obtain ⟨r1, r2⟩ := fraction_read (t := t) hm hk hu
    have hp := hpart f m hm hk
    have hl : leadingInt (Nat.digitChar e :: (s' ++ ('.' :: f ++ (u ++ t)))) 0 = some (n, '.' :: (f ++ (u ++ t))) := by
      have := leadingInt_digits hs (by omega) ('.' :: f ++ (u ++ t))
      rw [List.cons_append] at this
      rw [this, List.cons_append, leadingInt, if_neg (by decide)]
    rw [List.append_assoc, List.append_assoc, List.cons_append, durations, if_neg (by simp [e1]), hl]
    have hu0 : u ≠ [] := by rw [hcu]; simp
    simp only [e1, r1, t1, t2, u1, hu0, if_true, if_false, Bool.true_eq_false, false_and]
    rw [if_neg]
    · rw [hp, if_neg (by omega), if_neg (by omega)]
    · have : n ≤ (2 ^ 63 - 1) / k := (Nat.le_div_iff_mul_le u2).2 (by omega)
      omega
  | fraction f m hm hk =>
    obtain ⟨r1, r2⟩ := fraction_read (t := t) hm hk hu
    have hp := hpart f m hm hk
    have hl : leadingInt ('.' :: (f ++ (u ++ t))) 0 = some (0, '.' :: (f ++ (u ++ t))) := by
      rw [leadingInt, if_neg (by decide)]
    rw [List.append_assoc, List.cons_append, durations, if_neg (by decide), hl]
    have hu0 : u ≠ [] := by rw [hcu]; simp
    have hdec : decide (u ++ t ≠ f ++ (u ++ t)) = true := by simpa using Ne.symm r2
    simp only [r1, hdec, t1, t2, u1, hu0, if_true, if_false, Bool.true_eq_false, and_false, reduceCtorEq]
    rw [if_neg (Nat.not_lt_zero _)]
    simp only [Nat.zero_mul, Nat.zero_add]
    rw [hp, if_neg (by omega), if_neg (by omega)]

theorem amount_head {k : Nat} {s : List Char} {n : Nat} (h : Amount k s n) : ∃ c t, s = c :: t ∧ (c = '.' ∨ ∃ d, d < 10 ∧ c = Nat.digitChar d) := by
  cases h with
  | whole s n hs => obtain ⟨d, t, hd, rfl⟩ := digits_head hs; exact ⟨_, t, rfl, .inr ⟨d, hd, rfl⟩⟩
  | decimal s f n m hs hm hk => obtain ⟨d, t, hd, rfl⟩ := digits_head hs; exact ⟨_, _, rfl, .inr ⟨d, hd, rfl⟩⟩
  | fraction f m hm hk => exact ⟨_, _, rfl, .inl rfl⟩

theorem decimalTimes_head {s : List Char} {n : Nat} (h : DecimalTimes s n) :
    ∃ c e t, s = c :: e :: t ∧ (c = '.' ∨ ∃ d, d < 10 ∧ c = Nat.digitChar d) := by
  have key : ∀ (s u t : List Char) (n k : Nat), Amount k s n → (u, k) ∈ units →
      ∃ c e r, s ++ u ++ t = c :: e :: r ∧ (c = '.' ∨ ∃ d, d < 10 ∧ c = Nat.digitChar d) := by
    intro s u t n k h1 h2
    obtain ⟨c, s', rfl, hc⟩ := amount_head h1
    obtain ⟨-, -, -, -, x, u', rfl, -⟩ := unit_facts h2
    cases s' with
    | nil => exact ⟨c, x, _, rfl, hc⟩
    | cons a b => exact ⟨c, a, _, rfl, hc⟩
  cases h with
  | one s u n k h2 h1 => have := key s u [] n k h1 h2; rwa [List.append_nil] at this
  | more s u t n k d h2 h1 h3 => exact key s u t n k h1 h2

theorem durations_decimal (frac : Nat → Nat → Nat → Nat) (hx : FloatExact frac) {s : List Char} {n : Nat} (h : DecimalTimes s n) :
    ∀ (d fuel : Nat), s.length ≤ fuel → d + n < 2 ^ 63 → durations frac fuel s d = some (d + n) := by
  induction h with
  | one s u n k h2 h1 =>
    intro d fuel hf hn
    obtain ⟨x, s', rfl, -⟩ := amount_head h1
    obtain ⟨f, rfl⟩ : ∃ f, fuel = f + 1 := ⟨fuel - 1, by simp at hf; omega⟩
    have := durations_amount frac hx (t := []) (d := d) (fuel := f) h1 h2 (.inl rfl) (by omega)
    rw [List.append_nil] at this
    rw [this, durations.eq_def]
  | more s u t n k e h2 h1 h3 ih =>
    intro d fuel hf hn
    obtain ⟨x, s', rfl, -⟩ := amount_head h1
    obtain ⟨f, rfl⟩ : ∃ f, fuel = f + 1 := ⟨fuel - 1, by simp at hf; omega⟩
    obtain ⟨c, y, t', ht, hc⟩ := decimalTimes_head h3
    rw [durations_amount frac hx h1 h2 (.inr ⟨c, _, ht, hc.imp id (fun ⟨d, hd, e⟩ => by rw [e]; exact (digitChar_facts d hd).2.2.2.2.1)⟩) (by omega),
      ih (d + n) f (by simp at hf; omega) (by omega)]
    congr 1
    omega

theorem parseDuration_decimal (frac : Nat → Nat → Nat → Nat) (hx : FloatExact frac) {s : List Char} {n : Nat} (h : DecimalTimes s n)
    (hn : n < 2 ^ 63) : parseDuration frac s = some (n : Int) := by
  obtain ⟨c, e, t, hs, hc⟩ := decimalTimes_head h
  have hh : s.head? = some c := by rw [hs]; rfl
  have hm : c ≠ '-' ∧ c ≠ '+' := by
    rcases hc with rfl | ⟨d, hd, rfl⟩
    · decide
    · obtain ⟨-, -, -, -, -, h1, h2, -⟩ := digitChar_facts d hd
      exact ⟨h1, h2⟩
  unfold parseDuration
  simp only [hh, Option.some.injEq, hm.1, hm.2, or_self, if_false]
  rw [if_neg (by rw [hs]; simp), if_neg (by rw [hs]; simp), durations_decimal frac hx h 0 _ (Nat.le_refl _) (by omega)]
  simp

end FcRetrieval.Config
