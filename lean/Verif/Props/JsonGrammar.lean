import Verif.Spec.JsonGrammar
import Verif.Lemmas.JsonText
import Verif.Props.Message
import Verif.Lemmas.Wire
/-!
# C153: messages are read however a JSON library lays them out
-/
set_option linter.unusedSimpArgs false

namespace FcRetrieval.JsonGrammar

theorem white_skip {w : List Char} (h : White w) (s : List Char) : skipWs (w ++ s) = skipWs s := by
  induction w with
  | nil => rfl
  | cons c w ih =>
    have hc : isWs c = true := by
      rcases h c (by simp) with rfl | rfl | rfl | rfl <;> rfl
    rw [List.cons_append, skipWs, if_pos hc]
    exact ih (fun d hd => h d (List.mem_cons_of_mem _ hd))

theorem skip_white (s : List Char) : ∃ w, White w ∧ s = w ++ skipWs s ∧ ∀ c t, skipWs s = c :: t → isWs c = false := by
  induction s with
  | nil => exact ⟨[], by simp [White], rfl, by simp [skipWs]⟩
  | cons c s ih =>
    unfold skipWs
    split
    · rename_i hc
      obtain ⟨w, h1, h2, h3⟩ := ih
      refine ⟨c :: w, ?_, by rw [List.cons_append, ← h2], h3⟩
      intro d hd
      rcases List.mem_cons.1 hd with rfl | hd
      · simpa [isWs, or_assoc] using hc
      · exact h1 d hd
    · rename_i hc
      refine ⟨[], by simp [White], rfl, ?_⟩
      intro d t h
      cases h
      simpa using hc

theorem skip_idem (s : List Char) : skipWs (skipWs s) = skipWs s := by
  obtain ⟨w, h1, h2, -⟩ := skip_white s
  conv => rhs; rw [h2, white_skip h1]

theorem readValue_skip (fuel : Nat) (s : List Char) : readValue fuel (skipWs s) = readValue fuel s := by
  cases fuel with
  | zero => rfl
  | succ f => unfold readValue; rw [skip_idem]

theorem readElems_skip (fuel : Nat) (s : List Char) : readElems fuel (skipWs s) = readElems fuel s := by
  cases fuel with
  | zero => rfl
  | succ f => unfold readElems; rw [readValue_skip]

theorem readFields_skip (fuel : Nat) (s : List Char) : readFields fuel (skipWs s) = readFields fuel s := by
  cases fuel with
  | zero => rfl
  | succ f => unfold readFields; rw [skip_idem]

/-! ## strings -/

theorem hexDigits_val : ∀ x ∈ hexDigits, hexVal x.1 = some x.2 ∧ x.2 < 16 := by decide

theorem hexVal_small {c : Char} {n : Nat} (h : hexVal c = some n) : c.toNat < 128 := by
  have e : ∀ a b : Char, a ≤ b ↔ a.toNat ≤ b.toNat := fun a b => Iff.rfl
  unfold hexVal at h
  simp only [e] at h
  have : ('9'.toNat, 'f'.toNat, 'F'.toNat) = (57, 102, 70) := rfl
  simp only [Prod.mk.injEq] at this
  obtain ⟨h1, h2, h3⟩ := this
  rw [h1, h2, h3] at h
  split at h
  · omega
  · split at h
    · omega
    · split at h
      · omega
      · cases h

theorem hexVal_table : ∀ n, n < 128 → (hexVal (Char.ofNat n)).all (fun m => decide ((Char.ofNat n, m) ∈ hexDigits)) = true := by decide +kernel

theorem hexVal_digits {c : Char} {n : Nat} (h : hexVal c = some n) : (c, n) ∈ hexDigits := by
  have := hexVal_table c.toNat (hexVal_small h)
  rw [Char.ofNat_toNat, h] at this
  simpa using this

theorem hex4_read {h : List Char} {n : Nat} (hh : Hex4 h n) : ∃ a b c d, h = [a, b, c, d] ∧ hex4Val a b c d = some n ∧ n < 0x10000 := by
  obtain ⟨a, b, c, d, w, x, y, z, ha, hb, hc, hd⟩ := hh
  obtain ⟨h1, g1⟩ := hexDigits_val _ ha
  obtain ⟨h2, g2⟩ := hexDigits_val _ hb
  obtain ⟨h3, g3⟩ := hexDigits_val _ hc
  obtain ⟨h4, g4⟩ := hexDigits_val _ hd
  dsimp only at h1 h2 h3 h4 g1 g2 g3 g4
  refine ⟨a, b, c, d, rfl, ?_, by omega⟩
  unfold hex4Val
  rw [h1, h2, h3, h4]
  simp only [Option.some.injEq]
  omega

theorem hex4_of {a b c d : Char} {n : Nat} (h : hex4Val a b c d = some n) : Hex4 [a, b, c, d] n := by
  unfold hex4Val at h
  split at h
  · rename_i w x y z hw hx hy hz
    cases h
    have := Hex4.mk a b c d w x y z (hexVal_digits hw) (hexVal_digits hx) (hexVal_digits hy) (hexVal_digits hz)
    have e : ((w * 16 + x) * 16 + y) * 16 + z = w * 4096 + x * 256 + y * 16 + z := by omega
    rw [e] at this
    exact this
  · cases h

theorem escapes_read : ∀ x ∈ escapes, unescChar x.1 = some x.2 ∧ x.1 ≠ 'u' := by decide

theorem unesc_escapes {e c : Char} (h : unescChar e = some c) : (e, c) ∈ escapes := by
  unfold unescChar at h
  repeat' split at h
  all_goals first | (cases h; done) | skip
  · rename_i h1
    cases h
    rcases h1 with rfl | rfl | rfl <;> decide
  all_goals (rename_i h1; cases h; subst h1; decide)

/-- One character, however it is written, if what follows is not the other half of a pair: the strict grammar. -/
theorem readChar_text {c : Char} {t : List Char} (h : CharText false c t) (r : List Char) : readChar (t ++ r) = some (some c, r) := by
  cases h with
  | plain _ h1 h2 h3 =>
    rw [List.cons_append, List.nil_append, readChar, if_neg h2, if_neg h3, if_neg (by omega)]
  | escape e c hm =>
    obtain ⟨h1, h2⟩ := escapes_read _ hm
    have hr : readEscape (e :: r) = some (c, r) := by
      unfold readEscape
      split
      · rename_i heq
        cases heq
        exact absurd rfl h2
      · rename_i heq
        cases heq
        dsimp only at h1
        rw [h1]
      · rename_i heq
        cases heq
    simp only [List.cons_append, List.nil_append]
    rw [readChar, if_neg (by decide), if_pos rfl, hr]
  | code h n hh hn =>
    obtain ⟨a, b, c, d, rfl, h1, -⟩ := hex4_read hh
    simp only [List.cons_append, List.nil_append]
    rw [readChar, if_neg (by decide), if_pos rfl, readEscape, h1]
    dsimp only
    unfold surrogate
    rw [if_neg (by omega)]
  | pair h l hi lo hh hl g1 g2 =>
    obtain ⟨a, b, c, d, rfl, h1, -⟩ := hex4_read hh
    obtain ⟨a', b', c', d', rfl, h2, -⟩ := hex4_read hl
    simp only [List.cons_append, List.nil_append]
    rw [readChar, if_neg (by decide), if_pos rfl, readEscape, h1]
    dsimp only
    rw [surrogate, if_pos (by omega), h2]
    dsimp only
    rw [if_pos (by omega), Nat.add_sub_cancel_left, Nat.add_sub_cancel_left]
  | lone h n hl => cases hl

theorem charText_length {b : Bool} {c : Char} {t : List Char} (h : CharText b c t) : 1 ≤ t.length := by
  cases h <;> simp

theorem readStr_text {cs s : List Char} (h : StrText false cs s) : ∀ (fuel : Nat) (r : List Char), s.length + 1 ≤ fuel → readStr fuel (s ++ '"' :: r) = some (cs, r) := by
  induction h with
  | nil =>
    intro fuel r hf
    obtain ⟨f, rfl⟩ : ∃ f, fuel = f + 1 := ⟨fuel - 1, by simp at hf; omega⟩
    rw [List.nil_append, readStr, readChar, if_pos rfl]
  | cons c t cs s hc hs ih =>
    intro fuel r hf
    have := charText_length hc
    simp only [List.length_append] at hf
    obtain ⟨f, rfl⟩ : ∃ f, fuel = f + 1 := ⟨fuel - 1, by omega⟩
    rw [List.append_assoc, readStr, readChar_text hc]
    dsimp only
    rw [ih f r (by omega)]

theorem readQuoted_text {cs s : List Char} (h : StrText false cs s) (r : List Char) : readQuoted ('"' :: s ++ '"' :: r) = some (cs, r) := by
  show readQuoted ('"' :: (s ++ '"' :: r)) = _
  rw [readQuoted]
  exact readStr_text h _ r (by simp)

theorem surrogate_of {n : Nat} {h r r' : List Char} {x : Char} (h4 : Hex4 h n) (hr : surrogate n r = some (x, r')) :
    ∃ t, '\\' :: 'u' :: h ++ r = t ++ r' ∧ CharText true x t := by
  unfold surrogate at hr
  split at hr
  · rename_i hsur
    have hlone : CharText true (Char.ofNat 0xFFFD) ('\\' :: 'u' :: h) := .lone _ n rfl h4 (by omega) (by omega)
    split at hr
    · rename_i e f g i r1
      split at hr
      · cases hr
      · rename_i m hm
        split at hr
        · rename_i hlow
          simp only [Option.some.injEq, Prod.mk.injEq] at hr
          obtain ⟨rfl, rfl⟩ := hr
          refine ⟨'\\' :: 'u' :: h ++ '\\' :: 'u' :: [e, f, g, i], by simp, ?_⟩
          have := hex4_of hm
          refine .pair h [e, f, g, i] (n - 0xD800) (m - 0xDC00) ?_ ?_ (by omega) (by omega)
          · rw [Nat.add_sub_cancel' (by omega)]; exact h4
          · rw [Nat.add_sub_cancel' (by omega)]; exact this
        · simp only [Option.some.injEq, Prod.mk.injEq] at hr
          obtain ⟨rfl, rfl⟩ := hr
          exact ⟨'\\' :: 'u' :: h, rfl, hlone⟩
    · simp only [Option.some.injEq, Prod.mk.injEq] at hr
      obtain ⟨rfl, rfl⟩ := hr
      exact ⟨'\\' :: 'u' :: h, rfl, hlone⟩
  · simp only [Option.some.injEq, Prod.mk.injEq] at hr
    obtain ⟨rfl, rfl⟩ := hr
    exact ⟨'\\' :: 'u' :: h, rfl, .code _ n h4 (by omega)⟩

theorem escape_of {s r : List Char} {x : Char} (h : readEscape s = some (x, r)) : ∃ t, '\\' :: s = t ++ r ∧ CharText true x t := by
  unfold readEscape at h
  split at h
  · rename_i a b c d r1
    split at h
    · cases h
    · rename_i n hn
      exact surrogate_of (hex4_of hn) h
  · rename_i e r1 hne
    split at h
    · cases h
    · rename_i z hz
      cases h
      exact ⟨['\\', e], rfl, .escape e _ (unesc_escapes hz)⟩
  · cases h

/-- What is read as one character is one. -/
theorem char_of_read {s r : List Char} {x : Option Char} (h : readChar s = some (x, r)) :
    (x = none ∧ s = '"' :: r) ∨ ∃ c t, x = some c ∧ s = t ++ r ∧ CharText true c t := by
  cases s with
  | nil => cases h
  | cons c s =>
    rw [readChar] at h
    split at h
    · rename_i hc
      cases h
      exact .inl ⟨rfl, by rw [hc]⟩
    · rename_i hq
      split at h
      · rename_i hb
        subst hb
        split at h
        · cases h
        · rename_i y r' hr
          cases h
          obtain ⟨t, h1, h2⟩ := escape_of hr
          exact .inr ⟨_, t, rfl, h1, h2⟩
      · split at h
        · cases h
        · cases h
          rename_i h1 h2
          exact .inr ⟨c, [c], rfl, rfl, .plain c (by omega) hq h1⟩

theorem str_of_read : ∀ (fuel : Nat) {s cs r : List Char}, readStr fuel s = some (cs, r) → ∃ t, s = t ++ '"' :: r ∧ StrText true cs t
  | 0, _, _, _, h => by cases h
  | fuel + 1, s, cs, r, h => by
    unfold readStr at h
    split at h
    · cases h
    · rename_i r' hr
      cases h
      rcases char_of_read hr with ⟨-, rfl⟩ | ⟨c, t, hc, -⟩
      · exact ⟨[], rfl, .nil⟩
      · cases hc
    · rename_i c r' hr
      split at h
      · cases h
      · rename_i cs' r'' hs
        cases h
        rcases char_of_read hr with ⟨hc, -⟩ | ⟨c', t, hc, rfl, ht⟩
        · cases hc
        · cases hc
          obtain ⟨t', rfl, hs'⟩ := str_of_read fuel hs
          exact ⟨t ++ t', by simp, .cons _ _ _ _ ht hs'⟩

theorem quoted_of_read {s cs r : List Char} (h : readQuoted s = some (cs, r)) : ∃ t, s = '"' :: t ++ '"' :: r ∧ StrText true cs t := by
  unfold readQuoted at h
  split at h
  · obtain ⟨t, h1, h2⟩ := str_of_read _ h
    exact ⟨t, by rw [h1]; rfl, h2⟩
  · cases h

/-! ## numbers -/

theorem digit_char : ∀ d, d < 10 → isDigitC (Nat.digitChar d) = true ∧ (Nat.digitChar d).toNat - 48 = d ∧ (0 < d → Nat.digitChar d ≠ '0') := by decide

theorem digits_read {n : Nat} {s : List Char} (h : NatText n s) : ∀ r, readDigits 0 (s ++ r) = readDigits n r := by
  induction h with
  | digit d hd =>
    intro r
    obtain ⟨h1, h2, -⟩ := digit_char d hd
    rw [List.cons_append, List.nil_append, readDigits, if_pos h1, h2, Nat.mul_zero, Nat.zero_add]
  | more n d s hs hn hd ih =>
    intro r
    obtain ⟨h1, h2, -⟩ := digit_char d hd
    rw [List.append_assoc, ih, List.cons_append, List.nil_append, readDigits, if_pos h1, h2]

theorem natText_head {n : Nat} {s : List Char} (h : NatText n s) :
    ∃ c t, s = c :: t ∧ isDigitC c = true ∧ (0 < n → c ≠ '0') ∧ (n = 0 → s = ['0']) := by
  induction h with
  | digit d hd =>
    obtain ⟨h1, h2, h3⟩ := digit_char d hd
    exact ⟨_, [], rfl, h1, h3, by intro h; subst h; rfl⟩
  | more n d s hs hn hd ih =>
    obtain ⟨c, t, rfl, h1, h2, -⟩ := ih
    exact ⟨c, t ++ [Nat.digitChar d], rfl, h1, fun _ => h2 hn, by omega⟩

theorem readNat_text {n : Nat} {s r : List Char} (h : NatText n s) (hr : NoDigit r) : readNat (s ++ r) = some (n, r) := by
  obtain ⟨c, t, rfl, h1, h2, h3⟩ := natText_head h
  by_cases h0 : n = 0
  · rw [h3 h0, h0]
    rfl
  · have key := digits_read h r
    rw [List.cons_append] at key
    rw [List.cons_append, readNat, if_neg (h2 (by omega)), if_pos h1, key, readDigits_stop n r hr]

theorem digit_bound {c : Char} (h : isDigitC c = true) : 48 ≤ c.toNat ∧ c.toNat ≤ 57 := by
  have e : ∀ a b : Char, a ≤ b ↔ a.toNat ≤ b.toNat := fun a b => Iff.rfl
  unfold isDigitC at h
  simp only [Bool.and_eq_true, decide_eq_true_eq, e] at h
  exact h

theorem digit_table : ∀ n, n < 58 → 48 ≤ n → Char.ofNat n = Nat.digitChar (n - 48) ∧ (Char.ofNat n ≠ '0' → 0 < n - 48) := by decide

theorem digit_is {c : Char} (h : isDigitC c = true) : c = Nat.digitChar (c.toNat - 48) ∧ c.toNat - 48 < 10 ∧ (c ≠ '0' → 0 < c.toNat - 48) := by
  obtain ⟨h1, h2⟩ := digit_bound h
  have := digit_table c.toNat (by omega) h1
  rw [Char.ofNat_toNat] at this
  exact ⟨this.1, by omega, this.2⟩

theorem digits_of_read : ∀ (s : List Char) (n : Nat) (t0 : List Char), NatText n t0 → 0 < n → ∀ m r, readDigits n s = (m, r) →
    ∃ t, NatText m t ∧ t0 ++ s = t ++ r
  | [], n, t0, h, h0, m, r, e => by
    cases e
    exact ⟨t0, h, rfl⟩
  | c :: s, n, t0, h, h0, m, r, e => by
    rw [readDigits] at e
    split at e
    · rename_i hd
      obtain ⟨h1, h2, -⟩ := digit_is hd
      have hm := NatText.more n _ t0 h h0 h2
      obtain ⟨t, g1, g2⟩ := digits_of_read s _ _ hm (by omega) m r e
      refine ⟨t, g1, ?_⟩
      rw [← g2, List.append_assoc, ← h1]
      rfl
    · cases e
      exact ⟨t0, h, rfl⟩

theorem nat_of_read {s r : List Char} {n : Nat} (h : readNat s = some (n, r)) : ∃ t, s = t ++ r ∧ NatText n t := by
  cases s with
  | nil => cases h
  | cons c s =>
    rw [readNat] at h
    split at h
    · rename_i hc
      cases h
      exact ⟨['0'], by rw [hc]; rfl, .digit 0 (by omega)⟩
    · rename_i hc
      split at h
      · rename_i hd
        obtain ⟨h1, h2, h3⟩ := digit_is hd
        rw [readDigits, if_pos hd] at h
        simp only [Option.some.injEq] at h
        have hm := NatText.digit _ h2
        rw [Nat.mul_zero, Nat.zero_add] at h
        obtain ⟨t, g1, g2⟩ := digits_of_read s _ _ hm (h3 hc) n r h
        refine ⟨t, ?_, g1⟩
        rw [← g2, ← h1]
        rfl
      · cases h

/-! ## values -/

theorem readValue_white {w : List Char} (hw : White w) (fuel : Nat) (s : List Char) : readValue fuel (w ++ s) = readValue fuel s := by
  rw [← readValue_skip, white_skip hw, readValue_skip]

/-- The first character of what is written. -/
def Head : Part → List Char → Prop
  | .value _, s => ∃ c t, s = c :: t ∧ isWs c = false ∧ c ≠ ']'
  | .elems _, s => ∀ r, ∃ c t, skipWs (s ++ r) = c :: t ∧ c ≠ ']'
  | .members _, s => ∀ r, ∃ t, skipWs (s ++ r) = '"' :: t

theorem head {b : Bool} {p : Part} {s : List Char} (h : Text b p s) : Head p s := by
  induction h with
  | null => exact ⟨_, _, rfl, rfl, by decide⟩
  | true => exact ⟨_, _, rfl, rfl, by decide⟩
  | false => exact ⟨_, _, rfl, rfl, by decide⟩
  | nat n s hn =>
    obtain ⟨c, t, rfl, h1, -, -⟩ := natText_head hn
    have := digit_not_ws h1
    exact ⟨c, t, rfl, this.1, this.2.2.2.2.2⟩
  | minus n s hn => exact ⟨_, _, rfl, rfl, by decide⟩
  | str t s hs => exact ⟨_, _, rfl, rfl, by decide⟩
  | noElems w hw => exact ⟨_, _, rfl, rfl, by decide⟩
  | arr xs s hs ih => exact ⟨_, _, rfl, rfl, by decide⟩
  | noMembers w hw => exact ⟨_, _, rfl, rfl, by decide⟩
  | obj fs s hs ih => exact ⟨_, _, rfl, rfl, by decide⟩
  | elem w w' x s hw hw' hs ih =>
    intro r
    obtain ⟨c, t, rfl, h1, h2⟩ := ih
    rw [List.append_assoc, List.append_assoc, white_skip hw, List.cons_append, skipWs_cons h1]
    exact ⟨_, _, rfl, h2⟩
  | elemMore w w' x s xs t hw hw' hs ht ih ih2 =>
    intro r
    obtain ⟨c, t, rfl, h1, h2⟩ := ih
    rw [List.append_assoc, List.append_assoc, List.append_assoc, white_skip hw, List.cons_append, skipWs_cons h1]
    exact ⟨_, _, rfl, h2⟩
  | member w1 w2 w3 w4 k k' v s h1 h2 h3 h4 hk hs ih =>
    intro r
    simp only [List.append_assoc, List.cons_append]
    rw [white_skip h1, skipWs_cons rfl]
    exact ⟨_, rfl⟩
  | memberMore w1 w2 w3 w4 k k' v s fs t h1 h2 h3 h4 hk hs ht ih ih2 =>
    intro r
    simp only [List.append_assoc, List.cons_append]
    rw [white_skip h1, skipWs_cons rfl]
    exact ⟨_, rfl⟩

/-- What is written is read. -/
def Reads : Part → List Char → Prop
  | .value j, s => ∀ fuel r, 2 * s.length ≤ fuel → NoDigit r → readValue fuel (s ++ r) = some (j, r)
  | .elems xs, s => ∀ fuel r, 2 * s.length + 1 ≤ fuel → readElems fuel (s ++ ']' :: r) = some (xs, r)
  | .members fs, s => ∀ fuel r, 2 * s.length + 1 ≤ fuel → readFields fuel (s ++ '}' :: r) = some (fs, r)

theorem white_noDigit {w : List Char} (hw : White w) {s : List Char} (hs : NoDigit s) : NoDigit (w ++ s) := by
  intro c r h
  cases w with
  | nil => exact hs c r h
  | cons d w =>
    cases h
    rcases hw c (by simp) with rfl | rfl | rfl | rfl <;> rfl

theorem succ_of {k fuel : Nat} (h : k + 1 ≤ fuel) : ∃ f, fuel = f + 1 := ⟨fuel - 1, by omega⟩

theorem reads {p : Part} {s : List Char} (h : Text false p s) : Reads p s := by
  induction h with
  | null => 
    intro fuel r hf hr
    obtain ⟨f, rfl⟩ := succ_of (k := 0) (fuel := fuel) (by simp at hf; omega)
    rfl
  | true =>
    intro fuel r hf hr
    obtain ⟨f, rfl⟩ := succ_of (k := 0) (fuel := fuel) (by simp at hf; omega)
    rfl
  | false =>
    intro fuel r hf hr
    obtain ⟨f, rfl⟩ := succ_of (k := 0) (fuel := fuel) (by simp at hf; omega)
    rfl
  | nat n s hn =>
    intro fuel r hf hr
    have key := readNat_text hn hr
    obtain ⟨c, t, rfl, hd, -, -⟩ := natText_head hn
    obtain ⟨f, rfl⟩ := succ_of (k := 0) (fuel := fuel) (by simp at hf; omega)
    have hc := digit_not_ws hd
    rw [List.cons_append] at key
    rw [List.cons_append, readValue, skipWs_cons hc.1]
    dsimp only
    rw [if_neg hc.2.1, if_neg hc.2.2.1, if_neg hc.2.2.2.1, if_neg hc.2.2.2.2.1, if_pos hd, key]
  | minus n s hn =>
    intro fuel r hf hr
    have key := readNat_text hn hr
    obtain ⟨f, rfl⟩ := succ_of (k := 0) (fuel := fuel) (by simp at hf; omega)
    rw [List.cons_append, readValue, skipWs_cons rfl]
    dsimp only
    rw [if_neg (by decide), if_neg (by decide), if_neg (by decide), if_pos rfl, key]
  | str t s hs =>
    intro fuel r hf hr
    have key := readQuoted_text hs r
    obtain ⟨f, rfl⟩ := succ_of (k := 0) (fuel := fuel) (by simp at hf; omega)
    simp only [List.cons_append, List.append_assoc, List.nil_append] at key ⊢
    rw [readValue, skipWs_cons rfl]
    dsimp only
    rw [if_pos rfl, key]
  | noElems w hw =>
    intro fuel r hf hr
    obtain ⟨f, rfl⟩ := succ_of (k := 0) (fuel := fuel) (by simp at hf; omega)
    simp only [List.cons_append, List.append_assoc, List.nil_append]
    rw [readValue, skipWs_cons rfl]
    dsimp only
    rw [if_neg (by decide), if_pos rfl, white_skip hw, skipWs_cons rfl]
    rfl
  | arr xs s hs ih =>
    intro fuel r hf hr
    simp only [List.cons_append, List.append_assoc, List.nil_append, List.length_cons, List.length_append, List.length_nil] at hf ⊢
    obtain ⟨f, rfl⟩ := succ_of (k := 0) (fuel := fuel) (by omega)
    have key := ih f r (by omega)
    obtain ⟨c, t, h1, h2⟩ := head hs (']' :: r)
    rw [← readElems_skip, h1] at key
    rw [readValue, skipWs_cons rfl]
    dsimp only
    rw [if_neg (by decide), if_pos rfl, h1]
    split
    · rename_i heq
      cases heq
      exact absurd rfl h2
    · rw [key]
  | noMembers w hw =>
    intro fuel r hf hr
    obtain ⟨f, rfl⟩ := succ_of (k := 0) (fuel := fuel) (by simp at hf; omega)
    simp only [List.cons_append, List.append_assoc, List.nil_append]
    rw [readValue, skipWs_cons rfl]
    dsimp only
    rw [if_neg (by decide), if_neg (by decide), if_pos rfl, white_skip hw, skipWs_cons rfl]
    rfl
  | obj fs s hs ih =>
    intro fuel r hf hr
    simp only [List.cons_append, List.append_assoc, List.nil_append, List.length_cons, List.length_append, List.length_nil] at hf ⊢
    obtain ⟨f, rfl⟩ := succ_of (k := 0) (fuel := fuel) (by omega)
    have key := ih f r (by omega)
    obtain ⟨t, h1⟩ := head hs ('}' :: r)
    rw [← readFields_skip, h1] at key
    rw [readValue, skipWs_cons rfl]
    dsimp only
    rw [if_neg (by decide), if_neg (by decide), if_pos rfl, h1]
    split
    · rename_i heq
      cases heq
    · rw [key]
  | elem w w' x s hw hw' hs ih =>
    intro fuel r hf
    simp only [List.length_append] at hf
    obtain ⟨f, rfl⟩ := succ_of (k := 0) (fuel := fuel) (by omega)
    rw [List.append_assoc, List.append_assoc, readElems, readValue_white hw, ih f _ (by omega) (white_noDigit hw' (noDigit_cons rfl))]
    dsimp only
    rw [white_skip hw', skipWs_cons rfl]
    rfl
  | elemMore w w' x s xs t hw hw' hs ht ih ih2 =>
    intro fuel r hf
    simp only [List.length_append, List.length_cons] at hf
    obtain ⟨f, rfl⟩ := succ_of (k := 0) (fuel := fuel) (by omega)
    rw [List.append_assoc, List.append_assoc, List.append_assoc, List.cons_append, readElems, readValue_white hw,
      ih f _ (by omega) (white_noDigit hw' (noDigit_cons rfl))]
    dsimp only
    rw [white_skip hw', skipWs_cons rfl]
    simp only
    rw [ih2 f r (by omega)]
  | member w1 w2 w3 w4 k k' v s h1 h2 h3 h4 hk hs ih =>
    intro fuel r hf
    simp only [List.length_append, List.length_cons] at hf
    obtain ⟨f, rfl⟩ := succ_of (k := 0) (fuel := fuel) (by omega)
    have key := readQuoted_text hk (w2 ++ ':' :: (w3 ++ (s ++ (w4 ++ '}' :: r))))
    simp only [List.append_assoc, List.cons_append] at key ⊢
    rw [readFields, white_skip h1, skipWs_cons rfl, key]
    dsimp only
    rw [white_skip h2, skipWs_cons rfl]
    simp only
    rw [readValue_white h3, ih f _ (by omega) (white_noDigit h4 (noDigit_cons rfl))]
    dsimp only
    rw [white_skip h4, skipWs_cons rfl]
    rfl
  | memberMore w1 w2 w3 w4 k k' v s fs t h1 h2 h3 h4 hk hs ht ih ih2 =>
    intro fuel r hf
    simp only [List.length_append, List.length_cons] at hf
    obtain ⟨f, rfl⟩ := succ_of (k := 0) (fuel := fuel) (by omega)
    have key := readQuoted_text hk (w2 ++ ':' :: (w3 ++ (s ++ (w4 ++ ',' :: (t ++ '}' :: r)))))
    simp only [List.append_assoc, List.cons_append] at key ⊢
    rw [readFields, white_skip h1, skipWs_cons rfl, key]
    dsimp only
    rw [white_skip h2, skipWs_cons rfl]
    simp only
    rw [readValue_white h3, ih f _ (by omega) (white_noDigit h4 (noDigit_cons rfl))]
    dsimp only
    rw [white_skip h4, skipWs_cons rfl]
    simp only
    rw [ih2 f r (by omega)]

/-- C153: every text of a value, however it is laid out, is read as that value. -/
theorem C153_read {j : Json} {s : List Char} (h : Whole false j s) : parseJson s = some j := by
  obtain ⟨w, t, w', rfl, hw, hw', ht⟩ := h
  unfold parseJson
  rw [List.append_assoc, readValue_white hw,
    reads ht _ w' (by simp only [List.length_append]; omega) (by have := white_noDigit hw' noDigit_nil; rwa [List.append_nil] at this)]
  dsimp only
  have : skipWs w' = [] := by
    have := white_skip hw' []
    rwa [List.append_nil] at this
  rw [if_pos this]

theorem of_read : ∀ fuel : Nat,
    (∀ s j r, readValue fuel s = some (j, r) → ∃ w t, White w ∧ s = w ++ t ++ r ∧ Text true (.value j) t) ∧
    (∀ s xs r, readElems fuel s = some (xs, r) → ∃ t, s = t ++ ']' :: r ∧ Text true (.elems xs) t) ∧
    (∀ s fs r, readFields fuel s = some (fs, r) → ∃ t, s = t ++ '}' :: r ∧ Text true (.members fs) t)
  | 0 => ⟨fun _ _ _ h => by simp [readValue] at h, fun _ _ _ h => by simp [readElems] at h, fun _ _ _ h => by simp [readFields] at h⟩
  | fuel + 1 => by
    obtain ⟨ihV, ihE, ihF⟩ := of_read fuel
    refine ⟨?_, ?_, ?_⟩
    · intro s j r h
      obtain ⟨w, hw, hs, -⟩ := skip_white s
      suffices ∃ t, skipWs s = t ++ r ∧ Text true (.value j) t by
        obtain ⟨t, h1, h2⟩ := this
        exact ⟨w, t, hw, by rw [List.append_assoc, ← h1]; exact hs, h2⟩
      rw [readValue] at h
      split at h
      · cases h
      · rename_i c rest heq
        rw [heq]
        split at h
        · split at h
          · cases h
          · rename_i t r' hq
            cases h
            obtain ⟨t', h1, h2⟩ := quoted_of_read hq
            exact ⟨'"' :: t' ++ ['"'], by rw [h1]; simp, .str _ _ h2⟩
        · split at h
          · rename_i hc
            subst hc
            split at h
            · rename_i r' hr
              cases h
              obtain ⟨w', h1, h2, -⟩ := skip_white rest
              exact ⟨'[' :: w' ++ [']'], by rw [h2, hr]; simp, .noElems w' h1⟩
            · split at h
              · cases h
              · rename_i xs r' he
                cases h
                rw [readElems_skip] at he
                obtain ⟨t, h1, h2⟩ := ihE _ _ _ he
                exact ⟨'[' :: t ++ [']'], by rw [h1]; simp, .arr _ _ h2⟩
          · split at h
            · rename_i hc
              subst hc
              split at h
              · rename_i r' hr
                cases h
                obtain ⟨w', h1, h2, -⟩ := skip_white rest
                exact ⟨'{' :: w' ++ ['}'], by rw [h2, hr]; simp, .noMembers w' h1⟩
              · split at h
                · cases h
                · rename_i xs r' he
                  cases h
                  rw [readFields_skip] at he
                  obtain ⟨t, h1, h2⟩ := ihF _ _ _ he
                  exact ⟨'{' :: t ++ ['}'], by rw [h1]; simp, .obj _ _ h2⟩
            · split at h
              · rename_i hc
                subst hc
                split at h
                · cases h
                · rename_i n r' hn
                  cases h
                  obtain ⟨t, h1, h2⟩ := nat_of_read hn
                  exact ⟨'-' :: t, by rw [h1]; rfl, .minus _ _ h2⟩
              · split at h
                · split at h
                  · cases h
                  · rename_i n r' hn
                    cases h
                    obtain ⟨t, h1, h2⟩ := nat_of_read hn
                    exact ⟨t, h1, .nat _ _ h2⟩
                · split at h
                  · rename_i r' heq'
                    rw [heq']
                    cases h
                    exact ⟨_, rfl, .null⟩
                  · rename_i r' heq'
                    rw [heq']
                    cases h
                    exact ⟨_, rfl, .true⟩
                  · rename_i r' heq'
                    rw [heq']
                    cases h
                    exact ⟨_, rfl, .false⟩
                  · cases h
    · intro s xs r h
      rw [readElems] at h
      split at h
      · cases h
      · rename_i x r1 hv
        obtain ⟨w, t, h1, h2, h3⟩ := ihV _ _ _ hv
        obtain ⟨w', g1, g2, -⟩ := skip_white r1
        split at h
        · rename_i r2 hr
          split at h
          · cases h
          · rename_i ys r3 he
            cases h
            obtain ⟨t', k1, k2⟩ := ihE _ _ _ he
            exact ⟨w ++ t ++ w' ++ ',' :: t', by rw [h2, g2, hr, k1]; simp, .elemMore _ _ _ _ _ _ h1 g1 h3 k2⟩
        · rename_i r2 hr
          cases h
          exact ⟨w ++ t ++ w', by rw [h2, g2, hr]; simp, .elem _ _ _ _ h1 g1 h3⟩
        · cases h
    · intro s fs r h
      rw [readFields] at h
      obtain ⟨w1, hw1, e1, -⟩ := skip_white s
      split at h
      · cases h
      · rename_i k r0 hk
        obtain ⟨k', hk1, hk2⟩ := quoted_of_read hk
        obtain ⟨w2, hw2, e2, -⟩ := skip_white r0
        split at h
        · rename_i r1 hr1
          split at h
          · cases h
          · rename_i v r2 hv
            obtain ⟨w3, t, hw3, e3, ht⟩ := ihV _ _ _ hv
            obtain ⟨w4, hw4, e4, -⟩ := skip_white r2
            split at h
            · rename_i r3 hr3
              split at h
              · cases h
              · rename_i gs r4 hf
                cases h
                obtain ⟨t', k1, k2⟩ := ihF _ _ _ hf
                exact ⟨w1 ++ '"' :: k' ++ '"' :: w2 ++ ':' :: w3 ++ t ++ w4 ++ ',' :: t', by rw [e1, hk1, e2, hr1, e3, e4, hr3, k1]; simp,
                  .memberMore _ _ _ _ _ _ _ _ _ _ hw1 hw2 hw3 hw4 hk2 ht k2⟩
            · rename_i r3 hr3
              cases h
              exact ⟨w1 ++ '"' :: k' ++ '"' :: w2 ++ ':' :: w3 ++ t ++ w4, by rw [e1, hk1, e2, hr1, e3, e4, hr3]; simp,
                .member _ _ _ _ _ _ _ _ hw1 hw2 hw3 hw4 hk2 ht⟩
            · cases h
        · cases h

/-- C153: only texts of a value are read, and only as that value.  The grammar is the lenient one: half of a surrogate pair is read as U+FFFD. -/
theorem C153_refused {j : Json} {s : List Char} (h : parseJson s = some j) : Whole true j s := by
  unfold parseJson at h
  split at h
  · cases h
  · rename_i j' r hv
    split at h
    · rename_i hr
      cases h
      obtain ⟨w, t, h1, h2, h3⟩ := (of_read _).1 _ _ _ hv
      obtain ⟨w', g1, g2, -⟩ := skip_white r
      rw [hr, List.append_nil] at g2
      subst g2
      exact ⟨w, t, r, h2, h1, g1, h3⟩
    · cases h

/-- C153: a text is read as one value at most. -/
theorem C153_one {j j' : Json} {s : List Char} (h : Whole false j s) (h' : Whole false j' s) : j = j' := by
  have h1 := C153_read h
  rw [C153_read h'] at h1
  exact (Option.some.inj h1).symm

/-! ## what Go writes -/

theorem escChar_text (c : Char) : CharText false c (escChar c) := by
  unfold escChar
  split
  · rename_i h; subst h; exact .escape _ _ (by decide)
  split
  · rename_i h; subst h; exact .escape _ _ (by decide)
  split
  · rename_i h; subst h; exact .escape _ _ (by decide)
  split
  · rename_i h; subst h; exact .escape _ _ (by decide)
  split
  · rename_i h; subst h; exact .escape _ _ (by decide)
  rename_i h1 h2 h3 h4 h5
  split
  · rename_i h
    have hn : c.toNat < 0xD800 := by
      rcases h with h | h | h | h | h | h
      · omega
      · subst h; decide
      · subst h; decide
      · subst h; decide
      · omega
      · omega
    have := CharText.code (lenient := false) _ _ (hex4_of (hex4 c.toNat (by omega))) (.inl hn)
    rw [Char.ofNat_toNat] at this
    exact this
  · exact .plain c (by omega) h1 h2

theorem escStr_text : ∀ cs : List Char, StrText false cs (escStr cs)
  | [] => .nil
  | c :: cs => .cons _ _ _ _ (escChar_text c) (escStr_text cs)

theorem natDigits_text (n : Nat) : NatText n (natDigits n) := by
  obtain ⟨t, h1, h2⟩ := nat_of_read (readNat_digits n [] noDigit_nil)
  rw [List.append_nil, List.append_nil] at h1
  rw [h1]
  exact h2

theorem white_nil : White [] := fun _ h => by cases h

mutual
theorem render_text : ∀ j : Json, Text false (.value j) (render j)
  | .null => .null
  | .bool true => .true
  | .bool false => .false
  | .num n => by
    unfold render intDigits
    split
    · have := Text.minus (lenient := false) _ _ (natDigits_text n.natAbs)
      rwa [show (-(n.natAbs : Int)) = n by omega] at this
    · have := Text.nat (lenient := false) _ _ (natDigits_text n.natAbs)
      rwa [show ((n.natAbs : Int)) = n by omega] at this
  | .str s => .str _ _ (escStr_text s)
  | .arr [] => .noElems [] white_nil
  | .arr (x :: xs) => by
    obtain ⟨t, h1, h2⟩ := renderElems_text x xs
    unfold render
    rw [h1]
    exact .arr _ _ h2
  | .obj [] => .noMembers [] white_nil
  | .obj ((k, v) :: fs) => by
    obtain ⟨t, h1, h2⟩ := renderFields_text k v fs
    unfold render
    rw [h1]
    exact .obj _ _ h2
termination_by j => sizeOf j
theorem renderElems_text : ∀ (x : Json) (xs : List Json), ∃ t, render x ++ renderElems xs = t ++ [']'] ∧ Text false (.elems (x :: xs)) t
  | x, [] => ⟨render x, rfl, by
      have := Text.elem [] [] x _ white_nil white_nil (render_text x)
      rwa [List.nil_append, List.append_nil] at this⟩
  | x, y :: ys => by
    obtain ⟨t, h1, h2⟩ := renderElems_text y ys
    have := Text.elemMore [] [] x _ _ _ white_nil white_nil (render_text x) h2
    rw [List.nil_append, List.append_nil] at this
    refine ⟨_, ?_, this⟩
    simp only [renderElems]
    rw [h1]
    simp
termination_by x xs => sizeOf x + sizeOf xs + 1
theorem renderFields_text : ∀ (k : String) (v : Json) (fs : List (String × Json)),
    ∃ t, renderField (k, v) ++ renderFields fs = t ++ ['}'] ∧ Text false (.members ((k, v) :: fs)) t
  | k, v, [] => by
    have := Text.member [] [] [] [] k.toList _ v _ white_nil white_nil white_nil white_nil (escStr_text _) (render_text v)
    rw [String.ofList_toList] at this
    refine ⟨_, ?_, this⟩
    simp [renderField, renderFields]
  | k, v, (k2, v2) :: fs => by
    obtain ⟨t, h1, h2⟩ := renderFields_text k2 v2 fs
    have := Text.memberMore [] [] [] [] k.toList _ v _ _ _ white_nil white_nil white_nil white_nil (escStr_text _) (render_text v) h2
    rw [String.ofList_toList] at this
    refine ⟨_, ?_, this⟩
    simp only [renderFields]
    rw [h1]
    simp [renderField]
termination_by _ v fs => sizeOf v + sizeOf fs + 1
end

/-- C153: what is written is a text of the value, by the strict grammar. -/
theorem C153_written (j : Json) : Whole false j (render j) := ⟨[], render j, [], by simp, white_nil, white_nil, render_text j⟩

/-- C153: what is sent for a message is a JSON text with its members. -/
theorem C153_sent (m : Message.Msg) : ∃ s, Message.toBytes m = utf8Bytes s ∧ Whole false (.obj (messageMembers m)) s :=
  ⟨_, rfl, C153_written _⟩

/-- C153: a message is read from every JSON text with its members: in any order, with any layout and any escapes, with names in any letter case, and with members of other names
between them. -/
theorem C153_message {m : Message.Msg} (hm : Message.InRange m) {fs : List (String × Json)} (hf : ∀ x ∈ messageMembers m, HasMember fs x)
    {s : List Char} (hs : Whole false (.obj fs) s) : Message.fromBytes (utf8Bytes s) = .ok m := by
  obtain ⟨t, v, l, b, sig⟩ := m
  obtain ⟨h1, h2, h3⟩ := hm
  simp only at h1 h2 h3
  have hp : Message.parseText (utf8Bytes s) = some (.obj fs) := by
    unfold Message.parseText
    rw [utf8Text_bytes]
    exact C153_read hs
  unfold Message.fromBytes
  rw [hp]
  dsimp only [Message.unmarshal, decObj]
  simp only [Res.ofOption, Res.bind_ok]
  rw [memberFor_carries (hf ("message_type", _) (by simp [messageMembers]; rfl)), memberFor_carries (hf ("protocol_version", _) (by simp [messageMembers]; rfl)),
    memberFor_carries (hf ("protocol_supported", _) (by simp [messageMembers]; rfl)), memberFor_carries (hf ("message_body", _) (by simp [messageMembers]; rfl)),
    memberFor_carries (hf ("message_signature", _) (by simp [messageMembers]; rfl))]
  simp only [Res.ofOption, Res.bind_ok, Message.decI32_num h1, Message.decI32_num h2, Message.decInts_json l h3, Message.decBytes_json, decStr, Res.pure_ok]

/-- C153: what a message is read from is a JSON text. -/
theorem C153_message_refused {m : Message.Msg} {s : List Char} (h : Message.fromBytes (utf8Bytes s) = .ok m) : ∃ j, Whole true j s := by
  unfold Message.fromBytes Message.parseText at h
  rw [utf8Text_bytes] at h
  cases hj : parseJson s with
  | none => 
    rw [Option.bind_some, hj] at h
    cases h
  | some j => exact ⟨j, C153_refused hj⟩

/-- White space, a `\u` escape and a negative number. -/
theorem exLayout : Whole false (.arr [.num (-1), .str ['é']]) ['[', ' ', '-', '1', ' ', ',', '\t', '"', '\\', 'u', '0', '0', 'E', '9', '"', ']', '\n'] := by
  refine ⟨[], ['[', ' ', '-', '1', ' ', ',', '\t', '"', '\\', 'u', '0', '0', 'E', '9', '"', ']'], ['\n'], rfl, white_nil, by simp [White], ?_⟩
  refine .arr _ [' ', '-', '1', ' ', ',', '\t', '"', '\\', 'u', '0', '0', 'E', '9', '"'] ?_
  refine .elemMore [' '] [' '] _ ['-', '1'] _ ['\t', '"', '\\', 'u', '0', '0', 'E', '9', '"'] (by simp [White]) (by simp [White]) (.minus 1 _ (.digit 1 (by decide))) ?_
  refine .elem ['\t'] [] _ ['"', '\\', 'u', '0', '0', 'E', '9', '"'] (by simp [White]) white_nil (.str _ ['\\', 'u', '0', '0', 'E', '9'] ?_)
  exact .cons _ ['\\', 'u', '0', '0', 'E', '9'] [] [] (.code ['0', '0', 'E', '9'] 0xE9 (.mk '0' '0' 'E' '9' 0 0 14 9 (by decide) (by decide) (by decide) (by decide)) (by decide)) .nil

example : parseJson ['[', ' ', '-', '1', ' ', ',', '\t', '"', '\\', 'u', '0', '0', 'E', '9', '"', ']', '\n'] = some (.arr [.num (-1), .str ['é']]) := C153_read exLayout

/-- A pair of escapes is one character. -/
example : CharText false (Char.ofNat 0x1F600) ['\\', 'u', 'd', '8', '3', 'd', '\\', 'u', 'D', 'E', '0', '0'] :=
  .pair ['d', '8', '3', 'd'] ['D', 'E', '0', '0'] 0x3d 0x200 (.mk 'd' '8' '3' 'd' 13 8 3 13 (by decide) (by decide) (by decide) (by decide))
    (.mk 'D' 'E' '0' '0' 13 14 0 0 (by decide) (by decide) (by decide) (by decide)) (by decide) (by decide)

/-- The members of a message in another order, with one more and with names in other letter case. -/
def exMembers (m : Message.Msg) : List (String × Json) :=
  [("comment", .null), ("Message_Signature", .str m.signature), ("MESSAGE_BODY", jsonBytes m.body), ("protocol_\u017fupported", Message.intsJson m.supported),
    ("PROTOCOL_version", .num m.version), ("message_type", .num m.type)]

theorem exMembers_carries (m : Message.Msg) : ∀ x ∈ messageMembers m, HasMember (exMembers m) x := by
  have cut : ∀ (name : String) (l : List (Bool × String × Json)), (l.map (fun e => e.1)) = l.map (fun e => decide (foldName e.2.1 = foldName name)) →
      (l.map (fun e => e.2)).filter (fun e => decide (foldName e.1 = foldName name)) = (l.filter (fun e => e.1)).map (fun e => e.2) := by
    intro name l h
    induction l with
    | nil => rfl
    | cons a l ih =>
      simp only [List.map_cons, List.cons.injEq] at h
      simp only [List.map_cons, List.filter_cons, ih h.2, ← h.1]
      cases a.1 <;> rfl
  have pick : ∀ (name : String) (mask : List Bool), mask = (["comment", "Message_Signature", "MESSAGE_BODY", "protocol_\u017fupported", "PROTOCOL_version", "message_type"]).map
      (fun k => decide (foldName k = foldName name)) → mask.length = 6 →
      (exMembers m).filter (fun e => decide (foldName e.1 = foldName name)) = ((mask.zip (exMembers m)).filter (fun e => e.1)).map (fun e => e.2) := by
    intro name mask h hl
    have h1 := cut name (mask.zip (exMembers m)) (by subst h; rfl)
    have h2 : (mask.zip (exMembers m)).map (fun e => e.2) = exMembers m := by subst h; rfl
    rw [h2] at h1
    exact h1
  intro x hx
  simp only [messageMembers, List.mem_cons, List.not_mem_nil, or_false] at hx
  rcases hx with rfl | rfl | rfl | rfl | rfl
  · exact ⟨"message_type", (pick "message_type" [false, false, false, false, false, true] (by decide +kernel) rfl).trans rfl⟩
  · exact ⟨"PROTOCOL_version", (pick "protocol_version" [false, false, false, false, true, false] (by decide +kernel) rfl).trans rfl⟩
  · exact ⟨"protocol_\u017fupported", (pick "protocol_supported" [false, false, false, true, false, false] (by decide +kernel) rfl).trans rfl⟩
  · exact ⟨"MESSAGE_BODY", (pick "message_body" [false, false, true, false, false, false] (by decide +kernel) rfl).trans rfl⟩
  · exact ⟨"Message_Signature", (pick "message_signature" [false, true, false, false, false, false] (by decide +kernel) rfl).trans rfl⟩

example : Message.fromBytes (utf8Bytes (render (.obj (exMembers Message.exMsg)))) = .ok Message.exMsg :=
  C153_message Message.exMsg_inRange (exMembers_carries _) (C153_written _)

end FcRetrieval.JsonGrammar
