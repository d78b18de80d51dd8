import Verif.Lemmas.Bytes
import Verif.Model.JsonText
/-! Helper lemmas: reading back what was written. -/

set_option linter.unusedSimpArgs false

namespace FcRetrieval

/-- The text does not go on with a digit. -/
def NoDigit (s : List Char) : Prop := ∀ c r, s = c :: r → isDigitC c = false

theorem noDigit_nil : NoDigit [] := by intro c r h; cases h
theorem noDigit_cons {c : Char} {r : List Char} (h : isDigitC c = false) : NoDigit (c :: r) := by
  intro c' r' e; cases e; exact h

/-! ## numbers -/

theorem digit_val : ∀ k, k < 10 → isDigitC (Char.ofNat (48 + k)) = true ∧ (Char.ofNat (48 + k)).toNat - 48 = k ∧
    (k ≠ 0 → Char.ofNat (48 + k) ≠ '0') := by decide

theorem readDigits_digits : ∀ (fuel n acc : Nat) (s : List Char), n ≤ fuel →
    readDigits acc (natDigitsAux fuel n ++ s) = readDigits (acc * 10 ^ (natDigitsAux fuel n).length + n) s
  | 0, n, acc, s, h => by
    have : n = 0 := by omega
    subst this
    have d := digit_val 0 (by omega)
    simp only [natDigitsAux, List.cons_append, List.nil_append, readDigits, List.length_cons, List.length_nil]
    rw [if_pos d.1, d.2.1]
    congr 1; omega
  | fuel + 1, n, acc, s, h => by
    unfold natDigitsAux
    split
    · rename_i h10
      have d := digit_val n h10
      simp only [List.cons_append, List.nil_append, readDigits, List.length_cons, List.length_nil]
      rw [if_pos d.1, d.2.1]
      congr 1; omega
    · rename_i h10
      have d := digit_val (n % 10) (by omega)
      rw [List.append_assoc, readDigits_digits fuel (n / 10) acc _ (by omega)]
      simp only [List.cons_append, List.nil_append, readDigits, List.length_append, List.length_cons, List.length_nil]
      rw [if_pos d.1, d.2.1]
      congr 1
      rw [Nat.zero_add, Nat.pow_succ, Nat.mul_add, ← Nat.mul_assoc, ← Nat.mul_assoc, Nat.mul_comm 10 acc,
        Nat.mul_assoc acc 10, Nat.mul_comm 10 (10 ^ _), ← Nat.mul_assoc]
      omega

theorem digits_head : ∀ (fuel n : Nat), 0 < n → n ≤ fuel →
    ∃ c t, natDigitsAux fuel n = c :: t ∧ isDigitC c = true ∧ c ≠ '0'
  | 0, n, h0, h => by omega
  | fuel + 1, n, h0, h => by
    unfold natDigitsAux
    split
    · rename_i h10
      have d := digit_val n h10
      exact ⟨_, [], rfl, d.1, d.2.2 (by omega)⟩
    · obtain ⟨c, t, e, h1, h2⟩ := digits_head fuel (n / 10) (by omega) (by omega)
      exact ⟨c, t ++ [Char.ofNat (48 + n % 10)], by rw [e]; rfl, h1, h2⟩

theorem readDigits_stop (n : Nat) (s : List Char) (h : NoDigit s) : readDigits n s = (n, s) := by
  cases s with
  | nil => rfl
  | cons c r => simp [readDigits, h c r rfl]

theorem readNat_digits (n : Nat) (s : List Char) (h : NoDigit s) : readNat (natDigits n ++ s) = some (n, s) := by
  by_cases h0 : n = 0
  · subst h0; rfl
  · obtain ⟨c, t, e, h1, h2⟩ := digits_head n n (by omega) (Nat.le_refl _)
    have key := readDigits_digits n n 0 s (Nat.le_refl _)
    unfold natDigits
    rw [e] at key ⊢
    simp only [List.cons_append, readNat]
    rw [if_neg h2, if_pos h1]
    rw [List.cons_append] at key
    rw [key, Nat.zero_mul, Nat.zero_add, readDigits_stop n s h]

theorem natDigits_head (n : Nat) : ∃ c t, natDigits n = c :: t ∧ isDigitC c = true := by
  by_cases h0 : n = 0
  · subst h0; exact ⟨'0', [], rfl, rfl⟩
  · obtain ⟨c, t, e, h1, _⟩ := digits_head n n (by omega) (Nat.le_refl _)
    exact ⟨c, t, e, h1⟩

theorem natDigits_length_pos (n : Nat) : 1 ≤ (natDigits n).length := by
  obtain ⟨c, t, e, _⟩ := natDigits_head n
  rw [e]; simp

/-! ## strings -/

theorem hex4 (n : Nat) (h : n < 65536) :
    hex4Val (hexChar (n / 4096 % 16)) (hexChar (n / 256 % 16)) (hexChar (n / 16 % 16)) (hexChar (n % 16)) = some n := by
  unfold hex4Val
  rw [hexVal_hexChar _ (by omega), hexVal_hexChar _ (by omega), hexVal_hexChar _ (by omega), hexVal_hexChar _ (by omega)]
  simp only [Option.some.injEq]
  omega

theorem readChar_esc (c : Char) (r : List Char) : readChar (escChar c ++ r) = some (some c, r) := by
  unfold escChar
  split
  · rename_i h; subst h; rfl
  split
  · rename_i h; subst h; rfl
  split
  · rename_i h; subst h; rfl
  split
  · rename_i h; subst h; rfl
  split
  · rename_i h; subst h; rfl
  rename_i h1 h2 h3 h4 h5
  split
  · rename_i h
    have hn : c.toNat < 0xD800 := by
      rcases h with h | h | h | h | h | h
      · omega
      · subst h; decide
      · subst h; decide
      · subst h; decide
      · omega
      · omega
    simp only [hex4Digits, List.cons_append, List.nil_append, readChar]
    rw [if_neg (by decide), if_pos trivial]
    simp only [readEscape]
    rw [hex4 c.toNat (by omega)]
    simp only [surrogate]
    rw [if_neg (by omega)]
    simp
  · rename_i h
    simp only [List.cons_append, List.nil_append, readChar]
    rw [if_neg h1, if_neg h2, if_neg (by omega)]

theorem escChar_length (c : Char) : 1 ≤ (escChar c).length := by
  unfold escChar
  repeat' split
  all_goals simp [hex4Digits]

theorem readStr_esc : ∀ (s r : List Char) (fuel : Nat), (escStr s).length + 1 ≤ fuel →
    readStr fuel (escStr s ++ '"' :: r) = some (s, r)
  | [], r, 0, h => by simp at h
  | [], r, fuel + 1, h => rfl
  | c :: s, r, 0, h => by simp at h
  | c :: s, r, fuel + 1, h => by
    have hl := escChar_length c
    simp only [escStr, List.length_append] at h
    simp only [escStr, List.append_assoc, readStr]
    rw [readChar_esc]
    simp only
    rw [readStr_esc s r fuel (by omega)]

theorem readQuoted_esc (s r : List Char) : readQuoted ('"' :: (escStr s ++ '"' :: r)) = some (s, r) := by
  unfold readQuoted
  exact readStr_esc s r _ (by simp)

/-! ## values -/

theorem skipWs_cons {c : Char} (h : isWs c = false) (r : List Char) : skipWs (c :: r) = c :: r := by
  simp [skipWs, h]

theorem digit_not_ws {c : Char} (h : isDigitC c = true) : isWs c = false ∧ c ≠ '"' ∧ c ≠ '[' ∧ c ≠ '{' ∧ c ≠ '-' ∧ c ≠ ']' := by
  have key : ∀ d : Char, isDigitC d = false → c ≠ d := by intro d hd e; subst e; rw [h] at hd; cases hd
  refine ⟨?_, key _ rfl, key _ rfl, key _ rfl, key _ rfl, key _ rfl⟩
  have h1 := key ' ' rfl
  have h2 := key '\t' rfl
  have h3 := key '\n' rfl
  have h4 := key '\r' rfl
  simp [isWs, h1, h2, h3, h4]

/-- a rendered value starts with something that is neither white space nor a closing bracket -/
theorem render_head (j : Json) : ∃ c t, render j = c :: t ∧ isWs c = false ∧ c ≠ ']' := by
  cases j with
  | null => exact ⟨_, _, rfl, rfl, by decide⟩
  | bool b => cases b <;> exact ⟨_, _, rfl, rfl, by decide⟩
  | num n =>
    simp only [render, intDigits]
    split
    · exact ⟨_, _, rfl, rfl, by decide⟩
    · obtain ⟨c, t, e, h⟩ := natDigits_head n.natAbs
      have := digit_not_ws h
      exact ⟨c, t, e, this.1, this.2.2.2.2.2⟩
  | str s => exact ⟨_, _, rfl, rfl, by decide⟩
  | arr xs => cases xs <;> exact ⟨_, _, rfl, rfl, by decide⟩
  | obj fs => cases fs <;> exact ⟨_, _, rfl, rfl, by decide⟩

theorem skipWs_render (j : Json) (r : List Char) : skipWs (render j ++ r) = render j ++ r := by
  obtain ⟨c, t, e, h, _⟩ := render_head j
  rw [e]; exact skipWs_cons h _

theorem render_length (j : Json) : 1 ≤ (render j).length := by
  obtain ⟨c, t, e, _, _⟩ := render_head j
  rw [e]; simp

theorem renderField_eq (k : String) (v : Json) : renderField (k, v) = '"' :: (escStr k.toList ++ '"' :: ':' :: render v) := by
  rw [renderField]

theorem renderElems_noDigit (xs : List Json) (r : List Char) : NoDigit (renderElems xs ++ r) := by
  cases xs <;> (rw [renderElems]; exact noDigit_cons rfl)
theorem renderFields_noDigit (xs : List (String × Json)) (r : List Char) : NoDigit (renderFields xs ++ r) := by
  cases xs <;> (rw [renderFields]; exact noDigit_cons rfl)

mutual
theorem readValue_render : ∀ (j : Json) (fuel : Nat) (r : List Char), 2 * (render j).length ≤ fuel → NoDigit r →
    readValue fuel (render j ++ r) = some (j, r)
  | j, 0, r, h, _ => by have := render_length j; omega
  | .null, fuel + 1, r, h, _ => rfl
  | .bool true, fuel + 1, r, h, _ => rfl
  | .bool false, fuel + 1, r, h, _ => rfl
  | .num n, fuel + 1, r, h, hr => by
    rw [readValue, skipWs_render]
    simp only [render, intDigits]
    by_cases hn : n < 0
    · rw [if_pos hn]
      simp only [List.cons_append]
      rw [if_neg (by decide), if_neg (by decide), if_neg (by decide), if_pos trivial, readNat_digits _ _ hr]
      simp only [Option.some.injEq, Prod.mk.injEq, Json.num.injEq, and_true]
      omega
    · rw [if_neg hn]
      obtain ⟨c, t, e, hd⟩ := natDigits_head n.natAbs
      have hc := digit_not_ws hd
      have key := readNat_digits n.natAbs r hr
      rw [e, List.cons_append] at key
      rw [e]
      simp only [List.cons_append]
      rw [if_neg hc.2.1, if_neg hc.2.2.1, if_neg hc.2.2.2.1, if_neg hc.2.2.2.2.1, if_pos hd, key]
      simp only [Option.some.injEq, Prod.mk.injEq, Json.num.injEq, and_true]
      omega
  | .str s, fuel + 1, r, h, _ => by
    rw [readValue, skipWs_render]
    simp only [render, List.cons_append, List.append_assoc, List.nil_append]
    rw [if_pos trivial, readQuoted_esc]
  | .arr [], fuel + 1, r, h, _ => rfl
  | .arr (x :: xs), fuel + 1, r, h, _ => by
    rw [readValue, skipWs_render]
    simp only [render, List.cons_append, List.append_assoc]
    rw [if_neg (by decide), if_pos trivial, skipWs_render]
    simp only [render, List.length_cons, List.length_append] at h
    have key := readElems_render x xs fuel r (by omega)
    obtain ⟨c, t, e, _, hb⟩ := render_head x
    rw [e, List.cons_append] at key ⊢
    split
    · rename_i heq; simp only [List.cons.injEq] at heq; exact absurd heq.1 hb
    · rw [key]
  | .obj [], fuel + 1, r, h, _ => rfl
  | .obj ((k, v) :: fs), fuel + 1, r, h, _ => by
    rw [readValue, skipWs_render]
    simp only [render, List.cons_append, List.append_assoc]
    rw [if_neg (by decide), if_neg (by decide), if_pos trivial]
    simp only [render, List.length_cons, List.length_append] at h
    have key := readFields_render k v fs fuel r (by omega)
    rw [renderField_eq] at key ⊢
    rw [List.cons_append] at key ⊢
    rw [skipWs_cons rfl]
    split
    · rename_i heq; simp only [List.cons.injEq] at heq; exact absurd heq.1 (by decide)
    · rw [key]
theorem readElems_render : ∀ (x : Json) (xs : List Json) (fuel : Nat) (r : List Char),
    2 * ((render x).length + (renderElems xs).length) ≤ fuel →
    readElems fuel (render x ++ (renderElems xs ++ r)) = some (x :: xs, r)
  | x, xs, 0, r, h => by have := render_length x; omega
  | x, [], fuel + 1, r, h => by
    rw [readElems, readValue_render x fuel _ (by simp only [renderElems, List.length_cons, List.length_nil] at h; omega)
      (renderElems_noDigit _ _)]
    rfl
  | x, y :: ys, fuel + 1, r, h => by
    simp only [renderElems, List.length_cons, List.length_append] at h
    rw [readElems, readValue_render x fuel _ (by omega) (renderElems_noDigit _ _)]
    simp only [renderElems, List.cons_append, List.append_assoc]
    rw [skipWs_cons rfl]
    simp only
    rw [readElems_render y ys fuel r (by omega)]
theorem readFields_render : ∀ (k : String) (v : Json) (fs : List (String × Json)) (fuel : Nat) (r : List Char),
    2 * ((renderField (k, v)).length + (renderFields fs).length) ≤ fuel →
    readFields fuel (renderField (k, v) ++ (renderFields fs ++ r)) = some ((k, v) :: fs, r)
  | k, v, fs, 0, r, h => by rw [renderField_eq] at h; simp at h; omega
  | k, v, [], fuel + 1, r, h => by
    rw [renderField_eq] at h ⊢
    simp only [renderFields, List.length_cons, List.length_append, List.length_nil] at h
    rw [readFields]
    simp only [List.cons_append, List.append_assoc]
    rw [skipWs_cons rfl, readQuoted_esc]
    simp only
    rw [skipWs_cons rfl]
    simp only
    rw [readValue_render v fuel _ (by omega) (renderFields_noDigit _ _)]
    simp only [renderFields, List.cons_append, List.nil_append]
    rw [skipWs_cons rfl, String.ofList_toList]
    rfl
  | k, v, (k2, v2) :: fs, fuel + 1, r, h => by
    rw [renderField_eq] at h ⊢
    simp only [renderFields, List.length_cons, List.length_append] at h
    rw [readFields]
    simp only [List.cons_append, List.append_assoc]
    rw [skipWs_cons rfl, readQuoted_esc]
    simp only
    rw [skipWs_cons rfl]
    simp only
    rw [readValue_render v fuel _ (by omega) (renderFields_noDigit _ _)]
    simp only [renderFields, List.cons_append, List.append_assoc]
    rw [skipWs_cons rfl]
    simp only
    rw [readFields_render k2 v2 fs fuel r (by omega), String.ofList_toList]
end

theorem parseJson_render (j : Json) : parseJson (render j) = some j := by
  have h := readValue_render j (2 * (render j).length + 2) [] (by omega) noDigit_nil
  rw [List.append_nil] at h
  unfold parseJson
  rw [h]
  rfl

theorem render_inj {a b : Json} (h : render a = render b) : a = b := by
  have := congrArg parseJson h
  rw [parseJson_render, parseJson_render] at this
  simpa using this

end FcRetrieval
