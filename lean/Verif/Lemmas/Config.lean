import Verif.Model.Config
import Verif.Spec.Config
/-!
# Lemmas about reading numbers and durations
-/
set_option linter.unusedSimpArgs false

namespace FcRetrieval.Config

theorem digitChar_facts : ∀ d, d < 10 → digit (Nat.digitChar d) = d ∧ (Nat.digitChar d).toNat = d + 48 ∧ Nat.digitChar d ≠ '_' ∧ isSpace (Nat.digitChar d) = false ∧
    isDigit (Nat.digitChar d) = true ∧ Nat.digitChar d ≠ '-' ∧ Nat.digitChar d ≠ '+' ∧ Nat.digitChar d ≠ '.' ∧ (Nat.digitChar d = '0' → d = 0) := by decide

theorem scanDigits_digit {b d : Nat} (hb : d < b) (hd : d < 10) (rest : List Char) (prev : Prev) (bad : Bool) (count v : Nat) :
    scanDigits b (Nat.digitChar d :: rest) prev bad count v = scanDigits b rest .digit bad (count + 1) (v * b + d) := by
  obtain ⟨h1, h2, h3, -⟩ := digitChar_facts d hd
  rw [scanDigits, if_neg (by omega), if_neg h3, h1, if_neg (by omega)]

theorem scanDigits_sep {b : Nat} (rest : List Char) (bad : Bool) (count v : Nat) :
    scanDigits b ('_' :: rest) .digit bad count v = scanDigits b rest .sep bad count v := by
  rw [scanDigits, if_neg (by decide), if_pos rfl]
  simp

theorem scan_numeral {b : Nat} {s : List Char} {n : Nat} (h : Numeral b s n) :
    ∃ k, 0 < k ∧ ∀ rest prev count, scanDigits b (s ++ rest) prev false count 0 = scanDigits b rest .digit false (count + k) n := by
  induction h with
  | one d h1 h2 =>
    refine ⟨1, by omega, fun rest prev count => ?_⟩
    rw [List.singleton_append, scanDigits_digit h1 h2]
    simp
  | more s n d _ h1 h2 ih =>
    obtain ⟨k, -, ih⟩ := ih
    refine ⟨k + 1, by omega, fun rest prev count => ?_⟩
    rw [List.append_assoc, ih, List.singleton_append, scanDigits_digit h1 h2]
    rfl
  | group s n d _ h1 h2 ih =>
    obtain ⟨k, -, ih⟩ := ih
    refine ⟨k + 1, by omega, fun rest prev count => ?_⟩
    rw [List.append_assoc, ih, List.cons_append, List.singleton_append, scanDigits_sep, scanDigits_digit h1 h2]
    rfl

/-- What may follow a number: nothing, or a character that ends it. -/
def Ends (rest : List Char) : Prop := rest = [] ∨ ∃ c t, rest = c :: t ∧ Other c

theorem digit_cases : ∀ n, n < 128 → (∀ d, d < 10 → Char.ofNat n ≠ Nat.digitChar d) → 10 ≤ digit (Char.ofNat n) := by decide

theorem other_digit {c : Char} (h : Other c) : 10 ≤ digit c := by
  have := digit_cases c.toNat h.1
  rw [Char.ofNat_toNat] at this
  exact this h.2.2

theorem scanDigits_ends {b : Nat} (hb : b ≤ 10) {rest : List Char} (h : Ends rest) (prev : Prev) (bad : Bool) (count v : Nat) :
    scanDigits b rest prev bad count v = some (v, count, prev, bad) := by
  rcases h with rfl | ⟨c, t, rfl, hc⟩
  · rfl
  · have := other_digit hc
    rw [scanDigits, if_neg (by have := hc.1; omega), if_neg hc.2.1, if_pos (by omega)]

theorem scan_numeral_ends {b : Nat} (hb : b ≤ 10) {s : List Char} {n : Nat} (h : Numeral b s n) {rest : List Char} (hr : Ends rest) (prev : Prev) (octal : Bool) :
    scanned octal (scanDigits b (s ++ rest) prev false 0 0) = some n := by
  obtain ⟨k, hk, h⟩ := scan_numeral h
  rw [h, scanDigits_ends hb hr]
  simp only [scanned, Bool.false_or]
  rw [if_neg (by decide), if_neg (by omega)]

theorem numeral_head {b : Nat} {s : List Char} {n : Nat} (h : Numeral b s n) : ∃ d t, d < 10 ∧ s = Nat.digitChar d :: t := by
  induction h with
  | one d h1 h2 => exact ⟨d, [], h2, rfl⟩
  | more s n d _ h1 h2 ih =>
    obtain ⟨e, t, he, rfl⟩ := ih
    exact ⟨e, _, he, List.cons_append⟩
  | group s n d _ h1 h2 ih =>
    obtain ⟨e, t, he, rfl⟩ := ih
    exact ⟨e, _, he, List.cons_append⟩

theorem scanNat_plain (c : Char) (cs : List Char) (h : c ≠ '0') : scanNat (c :: cs) = scanned false (scanDigits 10 (c :: cs) .other false 0 0) := by
  cases cs with
  | nil => rfl
  | cons d cs => rw [scanNat, if_neg h]

/-- A number without leading zero, and what ends it. -/
theorem scanNat_numeral {s : List Char} {n : Nat} (h : Numeral 10 s n) (h0 : s.head? ≠ some '0') {rest : List Char} (hr : Ends rest) : scanNat (s ++ rest) = some n := by
  obtain ⟨d, t, hd, rfl⟩ := numeral_head h
  rw [List.cons_append, scanNat_plain _ _ (by simpa using h0), ← List.cons_append]
  exact scan_numeral_ends (by decide) h hr .other false

theorem numeral_zero {n : Nat} (h : Numeral 10 ['0'] n) : n = 0 := by
  have := scan_numeral_ends (by decide) h (.inl rfl) .other false
  have h2 : scanned false (scanDigits 10 (['0'] ++ []) .other false 0 0) = some 0 := by decide
  rw [h2] at this
  simpa using this.symm

theorem blank_ends {s : List Char} (h : Blank s) : Ends s := by
  cases s with
  | nil => exact .inl rfl
  | cons c t =>
    refine .inr ⟨c, t, rfl, ?_⟩
    rcases h c (by simp) with rfl | rfl | rfl | rfl <;> exact ⟨by decide, by decide, by decide⟩

/-- A zero followed by something that is neither a digit nor a prefix. -/
theorem scanNat_zero {rest : List Char} (h : Ends rest) (hp : ∀ c t, rest = c :: t → c.toNat < 65) : scanNat ('0' :: rest) = some 0 := by
  rcases h with rfl | ⟨c, t, rfl, hc⟩
  · decide
  · have hlt := hp c t rfl
    have hne : ∀ e : Char, 65 ≤ e.toNat → c ≠ e := by
      rintro e he rfl
      omega
    rw [scanNat, if_pos rfl, if_neg (by omega), if_neg (by simp [hne]), if_neg (by simp [hne]), if_neg (by simp [hne]), scanDigits_ends (by decide) (.inr ⟨c, t, rfl, hc⟩)]
    rfl

theorem scanNat_blank {s : List Char} {n : Nat} (h : Numeral 10 s n) (h0 : NoLeadingZero s) {rest : List Char} (hr : Blank rest) : scanNat (s ++ rest) = some n := by
  rcases h0 with h0 | rfl
  · exact scanNat_numeral h h0 (blank_ends hr)
  · rw [numeral_zero h]
    refine scanNat_zero (blank_ends hr) fun c t he => ?_
    have he' : rest = c :: t := he
    rcases hr c (by rw [he']; simp) with rfl | rfl | rfl | rfl <;> decide

theorem isSpace_blank {s : List Char} (h : Blank s) : ∀ c ∈ s, isSpace c = true := by
  intro c hc
  rcases h c hc with rfl | rfl | rfl | rfl <;> decide

theorem sscan_blank {pre : List Char} (h : Blank pre) (s : List Char) : sscan (pre ++ s) = sscan s := by
  unfold sscan
  rw [List.dropWhile_append_of_pos (isSpace_blank h)]

theorem scanInt_unsigned (c : Char) (cs : List Char) (h1 : c ≠ '-') (h2 : c ≠ '+') : scanInt (c :: cs) = (scanNat (c :: cs)).map (fun n => (n : Int)) := by
  rw [scanInt, if_neg h1, if_neg h2]

theorem sscan_head {c : Char} (h : isSpace c = false) (cs : List Char) : sscan (c :: cs) = scanInt (c :: cs) := by
  unfold sscan
  rw [List.dropWhile_cons_of_neg (by simp [h])]

/-- A text that begins with a digit is read as an unsigned number. -/
theorem sscan_digits {d : Nat} (hd : d < 10) (cs : List Char) : sscan (Nat.digitChar d :: cs) = (scanNat (Nat.digitChar d :: cs)).map (fun n => (n : Int)) := by
  obtain ⟨-, -, -, h1, -, h2, h3, -⟩ := digitChar_facts d hd
  rw [sscan_head h1, scanInt_unsigned _ _ h2 h3]

theorem sscan_numeral {s : List Char} {b n : Nat} (h : Numeral b s n) (rest : List Char) : sscan (s ++ rest) = (scanNat (s ++ rest)).map (fun n => (n : Int)) := by
  obtain ⟨d, t, hd, rfl⟩ := numeral_head h
  rw [List.cons_append, sscan_digits hd]

/-! ## durations -/

theorem digits_head {b : Nat} {s : List Char} {n : Nat} (h : Digits b s n) : ∃ d t, d < 10 ∧ s = Nat.digitChar d :: t := by
  induction h with
  | one d h1 h2 => exact ⟨d, [], h2, rfl⟩
  | more s n d _ h1 h2 ih =>
    obtain ⟨e, t, he, rfl⟩ := ih
    exact ⟨e, _, he, List.cons_append⟩

theorem leadingInt_digits {s : List Char} {n : Nat} (h : Digits 10 s n) (hn : n < 2 ^ 63) (rest : List Char) : leadingInt (s ++ rest) 0 = leadingInt rest n := by
  induction h generalizing rest with
  | one d h1 h2 =>
    obtain ⟨-, e1, -, -, e2, -⟩ := digitChar_facts d h2
    rw [List.singleton_append, leadingInt, if_pos e2, if_neg (by omega), if_neg (by omega), e1]
    congr 1
    omega
  | more s n d _ h1 h2 ih =>
    obtain ⟨-, e1, -, -, e2, -⟩ := digitChar_facts d h2
    rw [List.append_assoc, ih (by omega), List.singleton_append, leadingInt, if_pos e2, if_neg (by omega), if_neg (by omega), e1]
    congr 1

theorem unit_facts {u : List Char} {k : Nat} (h : (u, k) ∈ units) : unitOf u = some k ∧ 0 < k ∧ k < 2 ^ 63 ∧ (∀ c ∈ u, (!(c = '.' || isDigit c)) = true) ∧
    ∃ c t, u = c :: t ∧ isDigit c = false ∧ c ≠ '.' := by
  simp only [units, List.mem_cons, List.not_mem_nil, or_false, Prod.mk.injEq] at h
  rcases h with ⟨rfl, rfl⟩ | ⟨rfl, rfl⟩ | ⟨rfl, rfl⟩ | ⟨rfl, rfl⟩ | ⟨rfl, rfl⟩ | ⟨rfl, rfl⟩ <;>
    exact ⟨by decide, by decide, by decide, by decide, _, _, rfl, by decide, by decide⟩

/-- What follows a unit: nothing, or a digit. -/
def AfterUnit (s : List Char) : Prop := s = [] ∨ ∃ c t, s = c :: t ∧ isDigit c = true

theorem durations_one (frac : Nat → Nat → Nat → Nat) {s u t : List Char} {n k d fuel : Nat} (h : Digits 10 s n) (hu : (u, k) ∈ units) (ht : AfterUnit t) (hn : n * k + d < 2 ^ 63) :
    durations frac (fuel + 1) (s ++ u ++ t) d = durations frac fuel t (d + n * k) := by
  obtain ⟨u1, u2, u3, u4, c, u', rfl, u5, u6⟩ := unit_facts hu
  obtain ⟨e, s', he, rfl⟩ := digits_head h
  obtain ⟨-, -, -, -, e1, -⟩ := digitChar_facts e he
  have hnk : n ≤ n * k := Nat.le_mul_of_pos_right n u2
  have hl : leadingInt (Nat.digitChar e :: (s' ++ (c :: u') ++ t)) 0 = some (n, (c :: u') ++ t) := by
    have := leadingInt_digits h (by omega) ((c :: u') ++ t)
    rw [List.cons_append, ← List.append_assoc] at this
    rw [this, List.cons_append, leadingInt, if_neg (by simp [u5])]
  have htw : ((c :: u') ++ t).takeWhile (fun c => !(c = '.' || isDigit c)) = c :: u' ∧ ((c :: u') ++ t).dropWhile (fun c => !(c = '.' || isDigit c)) = t := by
    have h1 : t.takeWhile (fun c => !(c = '.' || isDigit c)) = [] ∧ t.dropWhile (fun c => !(c = '.' || isDigit c)) = t := by
      rcases ht with rfl | ⟨x, y, rfl, hx⟩
      · exact ⟨rfl, rfl⟩
      · exact ⟨List.takeWhile_cons_of_neg (by simp [hx]), List.dropWhile_cons_of_neg (by simp [hx])⟩
    rw [List.takeWhile_append_of_pos u4, List.dropWhile_append_of_pos u4, h1.1, h1.2]
    simp
  simp only [List.cons_append] at htw hl ⊢
  rw [durations, if_neg (by simp [e1])]
  simp only [List.append_assoc, List.cons_append] at hl ⊢
  rw [hl]
  simp only [e1, u6, if_false, htw.1, htw.2, u1, Bool.true_eq_false, false_and, reduceCtorEq]
  rw [if_neg]
  · simp only [Nat.lt_irrefl, if_false, Nat.add_zero]
    rw [if_neg (by omega), if_neg (by omega)]
  · have : n ≤ (2 ^ 63 - 1) / k := (Nat.le_div_iff_mul_le u2).2 (by omega)
    omega

theorem times_head {s : List Char} {n : Nat} (h : Times s n) : ∃ d t, d < 10 ∧ s = Nat.digitChar d :: t := by
  cases h with
  | one s u n k h1 h2 =>
    obtain ⟨d, t, hd, rfl⟩ := digits_head h1
    exact ⟨d, _, hd, List.cons_append⟩
  | more s u t n k d h1 h2 h3 =>
    obtain ⟨d, t, hd, rfl⟩ := digits_head h1
    exact ⟨d, _, hd, by rw [List.cons_append, List.cons_append]⟩

theorem times_length {s : List Char} {n : Nat} (h : Times s n) : ∃ x y t, s = x :: y :: t := by
  have key : ∀ (s u t : List Char) (n k : Nat), Digits 10 s n → (u, k) ∈ units → ∃ x y r, s ++ u ++ t = x :: y :: r := by
    intro s u t n k h1 h2
    obtain ⟨d, s', -, rfl⟩ := digits_head h1
    obtain ⟨-, -, -, -, c, u', rfl, -⟩ := unit_facts h2
    cases s' with
    | nil => exact ⟨_, _, _, rfl⟩
    | cons a b => exact ⟨_, _, _, rfl⟩
  cases h with
  | one s u n k h1 h2 => simpa using key s u [] n k h1 h2
  | more s u t n k d h1 h2 h3 => exact key s u t n k h1 h2

theorem durations_times (frac : Nat → Nat → Nat → Nat) {s : List Char} {n : Nat} (h : Times s n) : ∀ (d fuel : Nat), s.length ≤ fuel → d + n < 2 ^ 63 →
    durations frac fuel s d = some (d + n) := by
  induction h with
  | one s u n k h1 h2 =>
    intro d fuel hf hn
    obtain ⟨x, s', -, rfl⟩ := digits_head h1
    obtain ⟨f, rfl⟩ : ∃ f, fuel = f + 1 := ⟨fuel - 1, by simp at hf; omega⟩
    have := durations_one frac (t := []) (d := d) (fuel := f) h1 h2 (.inl rfl) (by omega)
    rw [List.append_nil] at this
    rw [this, durations.eq_def]
  | more s u t n k e h1 h2 h3 ih =>
    intro d fuel hf hn
    obtain ⟨x, s', -, rfl⟩ := digits_head h1
    obtain ⟨f, rfl⟩ : ∃ f, fuel = f + 1 := ⟨fuel - 1, by simp at hf; omega⟩
    obtain ⟨y, t', hy, ht⟩ := times_head h3
    rw [durations_one frac h1 h2 (.inr ⟨_, t', ht, (digitChar_facts y hy).2.2.2.2.1⟩) (by omega), ih (d + n * k) f (by simp at hf; omega) (by omega)]
    congr 1
    omega

theorem parseDuration_times (frac : Nat → Nat → Nat → Nat) {s : List Char} {n : Nat} (h : Times s n) (hn : n < 2 ^ 63) : parseDuration frac s = some (n : Int) := by
  obtain ⟨d, t, hd, hs⟩ := times_head h
  obtain ⟨x, y, r, hs'⟩ := times_length h
  obtain ⟨-, -, -, -, -, h1, h2, -⟩ := digitChar_facts d hd
  have hh : s.head? = some (Nat.digitChar d) := by rw [hs]; rfl
  unfold parseDuration
  simp only [hh, Option.some.injEq, h1, h2, or_self, if_false]
  rw [if_neg (by rw [hs']; simp), if_neg (by rw [hs']; simp), durations_times frac h 0 _ (Nat.le_refl _) (by omega)]
  simp

theorem parseDuration_negative (frac : Nat → Nat → Nat → Nat) {s : List Char} {n : Nat} (h : Times s n) (hn : n < 2 ^ 63) : parseDuration frac ('-' :: s) = some (-(n : Int)) := by
  obtain ⟨x, y, r, hs'⟩ := times_length h
  unfold parseDuration
  simp only [List.head?_cons, true_or, if_true, List.drop_succ_cons, List.drop_zero]
  rw [if_neg (by rw [hs']; simp), if_neg (by rw [hs']; simp), durations_times frac h 0 _ (Nat.le_refl _) (by omega)]
  simp

end FcRetrieval.Config
