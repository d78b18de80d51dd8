import Verif.Props.ConfigForeign
/-!
# C136: configured amounts with underscores in the wrong place
-/
set_option linter.unusedSimpArgs false

namespace FcRetrieval.Config

/-- An underscore that is not between two digits: at the start, after another underscore, or at the end of the digits. -/
inductive Misplaced : List Char → Prop
  | start (t : List Char) : Misplaced ('_' :: t)
  | twice (m : List Char) (n : Nat) (t : List Char) : Numeral 10 m n → m.head? ≠ some '0' → Misplaced (m ++ '_' :: '_' :: t)
  | last (m : List Char) (n : Nat) : Numeral 10 m n → m.head? ≠ some '0' → Misplaced (m ++ ['_'])
  | ending (m : List Char) (n : Nat) (c : Char) (t : List Char) : Numeral 10 m n → m.head? ≠ some '0' → Other c → Misplaced (m ++ '_' :: c :: t)

theorem scanned_bad (b : Nat) (octal : Bool) : ∀ (s : List Char) (prev : Prev) (k v : Nat), scanned octal (scanDigits b s prev true k v) = none := by
  intro s
  induction s with
  | nil => intro prev k v; simp [scanDigits, scanned]
  | cons c cs ih =>
    intro prev k v
    rw [scanDigits]
    split
    · rfl
    · split
      · simpa using ih .sep k v
      · split
        · simp [scanned]
        · exact ih .digit (k + 1) (v * b + digit c)

theorem scanDigits_underscore (b : Nat) (t : List Char) (prev : Prev) (bad : Bool) (k v : Nat) :
    scanDigits b ('_' :: t) prev bad k v = scanDigits b t .sep (bad || decide (prev ≠ .digit)) k v := by
  rw [scanDigits, if_neg (by decide), if_pos rfl]

theorem digit_other {c : Char} (h : Other c) : 10 ≤ digit c := by
  obtain ⟨-, -, h3⟩ := h
  unfold digit
  split
  · next hc =>
    exfalso
    refine h3 (c.toNat - 48) (by omega) ?_
    have : ∀ k, 48 ≤ k → k ≤ 57 → Char.ofNat k = Nat.digitChar (k - 48) := by
      intro k h1 h2
      rcases (by omega : k = 48 ∨ k = 49 ∨ k = 50 ∨ k = 51 ∨ k = 52 ∨ k = 53 ∨ k = 54 ∨ k = 55 ∨ k = 56 ∨ k = 57) with
        rfl | rfl | rfl | rfl | rfl | rfl | rfl | rfl | rfl | rfl <;> rfl
    rw [← this _ hc.1 hc.2, Char.ofNat_toNat]
  · split
    · omega
    · split <;> omega

/-- After the digits. -/
theorem scanNat_after {m : List Char} {n : Nat} (hm : Numeral 10 m n) (h0 : m.head? ≠ some '0') (t : List Char) :
    ∃ k, scanNat (m ++ t) = scanned false (scanDigits 10 t .digit false k n) := by
  obtain ⟨k, -, hk⟩ := scan_numeral hm
  have hk := hk t .other 0
  obtain ⟨d, m', hd, rfl⟩ := numeral_head hm
  refine ⟨0 + k, ?_⟩
  rw [List.cons_append, scanNat_plain _ _ (by simpa using h0), ← List.cons_append, hk]

theorem scanNat_misplaced {s : List Char} (h : Misplaced s) : scanNat s = none := by
  cases h with
  | start t => rw [scanNat_plain _ _ (by decide), scanDigits_underscore]; exact scanned_bad _ _ _ _ _ _
  | twice m n t hm h0 =>
    obtain ⟨k, hk⟩ := scanNat_after hm h0 ('_' :: '_' :: t)
    rw [hk, scanDigits_underscore, scanDigits_underscore]
    exact scanned_bad _ _ _ _ _ _
  | last m n hm h0 =>
    obtain ⟨k, hk⟩ := scanNat_after hm h0 ['_']
    rw [hk, scanDigits_underscore, scanDigits]
    rfl
  | ending m n c t hm h0 hc =>
    obtain ⟨k, hk⟩ := scanNat_after hm h0 ('_' :: c :: t)
    rw [hk, scanDigits_underscore, scanDigits, if_neg (by have := hc.1; omega), if_neg hc.2.1, if_pos (digit_other hc)]
    rfl

theorem misplaced_head {s : List Char} (h : Misplaced s) : ∃ c t, s = c :: t ∧ isSpace c = false ∧ c ≠ '-' ∧ c ≠ '+' := by
  have key : ∀ m n t, Numeral 10 m n → ∃ c t', m ++ t = c :: t' ∧ isSpace c = false ∧ c ≠ '-' ∧ c ≠ '+' := by
    intro m n t hm
    obtain ⟨d, m', hd, rfl⟩ := numeral_head hm
    obtain ⟨-, -, -, h1, -, h2, h3, -⟩ := digitChar_facts d hd
    exact ⟨_, m' ++ t, rfl, h1, h2, h3⟩
  cases h with
  | start t => exact ⟨_, _, rfl, by decide, by decide, by decide⟩
  | twice m n t hm => exact key m n _ hm
  | last m n hm => exact key m n _ hm
  | ending m n c t hm => exact key m n _ hm

theorem sscan_misplaced {pre sign s : List Char} (hp : AnyBlank pre) (hs : sign ∈ [[], ['+'], ['-']]) (h : Misplaced s) : sscan (pre ++ (sign ++ s)) = none := by
  have hn := scanNat_misplaced h
  obtain ⟨c, t, rfl, h1, h2, h3⟩ := misplaced_head h
  rw [sscan_anyBlank hp]
  simp only [List.mem_cons, List.not_mem_nil, or_false] at hs
  rcases hs with rfl | rfl | rfl
  · rw [List.nil_append, sscan_head h1, scanInt_unsigned _ _ h2 h3, hn]; rfl
  · rw [List.cons_append, List.nil_append, sscan_head (by decide), scanInt, if_neg (by decide), if_pos rfl, hn]; rfl
  · rw [List.cons_append, List.nil_append, sscan_head (by decide), scanInt, if_pos rfl, hn]; rfl

/-- **C136**, underscores: one that is not between two digits makes the text no number, and the default is taken. -/
theorem C136_separator (frac : Nat → Nat → Nat → Nat) (conf : String → List Char) (s : Settings) (h : Configured frac conf s) (pre sign t : List Char)
    (hp : AnyBlank pre) (hs : sign ∈ [[], ['+'], ['-']]) (ht : Misplaced t) :
    (conf "SEARCH_PRICE" = pre ++ (sign ++ t) → s.searchPrice = 10 ^ 15) ∧ (conf "OFFER_PRICE" = pre ++ (sign ++ t) → s.offerPrice = 10 ^ 15) ∧
    (conf "TOPUP_AMOUNT" = pre ++ (sign ++ t) → s.topup = 10 ^ 17) := by
  obtain ⟨-, -, -, e1, e2, e3⟩ := configured_read h
  refine ⟨fun he => ?_, fun he => ?_, fun he => ?_⟩
  · rw [e1, he, amount, sscan_misplaced hp hs ht]; rfl
  · rw [e2, he, amount, sscan_misplaced hp hs ht]; rfl
  · rw [e3, he, amount, sscan_misplaced hp hs ht]; rfl

/-- Non-vacuity: `5_` and `5__0`. -/
example : Misplaced ['5', '_'] ∧ Misplaced ['5', '_', '_', '0'] :=
  ⟨.last ['5'] 5 (.one 5 (by decide) (by decide)) (by decide), .twice ['5'] 5 ['0'] (.one 5 (by decide) (by decide)) (by decide)⟩

end FcRetrieval.Config
