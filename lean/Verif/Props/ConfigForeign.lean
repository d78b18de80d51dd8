import Verif.Props.Config
/-!
# C136: configured amounts with characters outside ASCII
-/
set_option linter.unusedSimpArgs false

namespace FcRetrieval.Config

/-- A character outside ASCII, such as a currency sign or a typographic minus. -/
abbrev Foreign (c : Char) : Prop := 128 ≤ c.toNat

/-- The blanks of Unicode that are outside ASCII: no-break space, the spaces of typography, the separators of lines and paragraphs. -/
def foreignBlanks : List Nat :=
  [0x85, 0xa0, 0x1680, 0x2000, 0x2001, 0x2002, 0x2003, 0x2004, 0x2005, 0x2006, 0x2007, 0x2008, 0x2009, 0x200a, 0x2028, 0x2029, 0x202f, 0x205f, 0x3000]

/-- Spaces, tabs, ends of lines and blanks outside ASCII. -/
def AnyBlank (s : List Char) : Prop := ∀ c ∈ s, (c = ' ' ∨ c = '\t' ∨ c = '\n' ∨ c = '\r') ∨ c.toNat ∈ foreignBlanks

/-- The text has a character outside ASCII where a number is expected, or directly after the digits of one. -/
inductive Spoilt : List Char → Prop
  | start (pre : List Char) (c : Char) (t : List Char) : AnyBlank pre → Foreign c → c.toNat ∉ foreignBlanks → Spoilt (pre ++ c :: t)
  | number (pre sign m : List Char) (n : Nat) (c : Char) (t : List Char) : AnyBlank pre → sign ∈ [[], ['+'], ['-']] → Numeral 10 m n → m.head? ≠ some '0' → Foreign c →
      Spoilt (pre ++ (sign ++ (m ++ c :: t)))
  | zero (pre sign : List Char) (c : Char) (t : List Char) : AnyBlank pre → sign ∈ [[], ['+'], ['-']] → Foreign c → Spoilt (pre ++ (sign ++ '0' :: c :: t))

theorem scanDigits_foreign {c : Char} (h : Foreign c) (b : Nat) (t : List Char) (prev : Prev) (bad : Bool) (k v : Nat) : scanDigits b (c :: t) prev bad k v = none := by
  rw [scanDigits, if_pos (show 128 ≤ c.toNat from h)]

theorem isSpace_any {s : List Char} (h : AnyBlank s) : ∀ c ∈ s, isSpace c = true := by
  intro c hc
  rcases h c hc with (rfl | rfl | rfl | rfl) | h
  · rfl
  · rfl
  · rfl
  · rfl
  · simp only [foreignBlanks, List.mem_cons, List.not_mem_nil, or_false] at h
    simp only [isSpace, Bool.or_eq_true, Bool.and_eq_true, decide_eq_true_eq, beq_iff_eq]
    omega

theorem not_isSpace {c : Char} (h : Foreign c) (hn : c.toNat ∉ foreignBlanks) : isSpace c = false := by
  simp only [foreignBlanks, List.mem_cons, List.not_mem_nil, or_false] at hn
  rw [Bool.eq_false_iff]
  intro hs
  simp only [isSpace, Bool.or_eq_true, Bool.and_eq_true, decide_eq_true_eq, beq_iff_eq] at hs
  have h' : 128 ≤ c.toNat := h
  omega

theorem sscan_anyBlank {pre : List Char} (h : AnyBlank pre) (s : List Char) : sscan (pre ++ s) = sscan s := by
  unfold sscan
  rw [List.dropWhile_append_of_pos (isSpace_any h)]

theorem sscan_signed {sign : List Char} (hs : sign ∈ [[], ['+'], ['-']]) {d : Nat} (hd : d < 10) {t : List Char} (h : scanNat (Nat.digitChar d :: t) = none) :
    sscan (sign ++ Nat.digitChar d :: t) = none := by
  simp only [List.mem_cons, List.not_mem_nil, or_false] at hs
  rcases hs with rfl | rfl | rfl
  · rw [List.nil_append, sscan_digits hd, h]; rfl
  · rw [List.cons_append, List.nil_append, sscan_head (by decide), scanInt, if_neg (by decide), if_pos rfl, h]; rfl
  · rw [List.cons_append, List.nil_append, sscan_head (by decide), scanInt, if_pos rfl, h]; rfl

theorem sscan_spoilt {s : List Char} (h : Spoilt s) : sscan s = none := by
  cases h with
  | start pre c t h1 h2 h3 =>
    have h2' : 128 ≤ c.toNat := h2
    have e : ∀ d : Char, d.toNat < 128 → c ≠ d := by rintro d hd rfl; omega
    rw [sscan_anyBlank h1, sscan_head (not_isSpace h2 h3), scanInt_unsigned _ _ (e _ (by decide)) (e _ (by decide)), scanNat_plain _ _ (e _ (by decide)),
      scanDigits_foreign h2]
    rfl
  | number pre sign m n c t h1 hs hm h0 hc =>
    obtain ⟨k, -, hk⟩ := scan_numeral hm
    have hk := hk (c :: t) .other 0
    obtain ⟨d, m', hd, rfl⟩ := numeral_head hm
    rw [sscan_anyBlank h1]
    refine sscan_signed hs hd ?_
    rw [List.append_eq, ← List.cons_append] at *
    rw [List.cons_append, scanNat_plain _ _ (by simpa using h0), ← List.cons_append, hk, scanDigits_foreign hc]
    rfl
  | zero pre sign c t h1 hs hc =>
    rw [sscan_anyBlank h1]
    refine sscan_signed (d := 0) hs (by decide) ?_
    have hc' : 128 ≤ c.toNat := hc
    rw [show Nat.digitChar 0 = '0' from rfl, scanNat, if_pos rfl, if_pos hc']

/-- **C136**, outside ASCII: a text with a character outside ASCII before or directly after the digits is no number, and the default is taken; where any other
character after the digits just ends the number (`C136_suffix_refuted`). -/
theorem C136_foreign (frac : Nat → Nat → Nat → Nat) (conf : String → List Char) (s : Settings) (h : Configured frac conf s) :
    (Spoilt (conf "SEARCH_PRICE") → s.searchPrice = 10 ^ 15) ∧ (Spoilt (conf "OFFER_PRICE") → s.offerPrice = 10 ^ 15) ∧ (Spoilt (conf "TOPUP_AMOUNT") → s.topup = 10 ^ 17) := by
  obtain ⟨-, -, -, e1, e2, e3⟩ := configured_read h
  refine ⟨fun hw => ?_, fun hw => ?_, fun hw => ?_⟩
  · rw [e1, amount, sscan_spoilt hw]; rfl
  · rw [e2, amount, sscan_spoilt hw]; rfl
  · rw [e3, amount, sscan_spoilt hw]; rfl

/-- **C136**, outside ASCII: blanks outside ASCII before a whole decimal number are passed over. -/
theorem C136_foreign_blanks (frac : Nat → Nat → Nat → Nat) (conf : String → List Char) (s : Settings) (h : Configured frac conf s) (pre t : List Char) (n : Int)
    (hp : AnyBlank pre) (hw : Written t n) :
    (conf "SEARCH_PRICE" = pre ++ t → s.searchPrice = n) ∧ (conf "OFFER_PRICE" = pre ++ t → s.offerPrice = n) ∧ (conf "TOPUP_AMOUNT" = pre ++ t → s.topup = n) := by
  obtain ⟨-, -, -, e1, e2, e3⟩ := configured_read h
  refine ⟨fun he => ?_, fun he => ?_, fun he => ?_⟩
  · rw [e1, he, amount, sscan_anyBlank hp, sscan_written hw]; rfl
  · rw [e2, he, amount, sscan_anyBlank hp, sscan_written hw]; rfl
  · rw [e3, he, amount, sscan_anyBlank hp, sscan_written hw]; rfl

/-- Non-vacuity: `5€` is no number, and five after a no-break space is five. -/
example : Spoilt ['5', '€'] := .number [] [] ['5'] 5 '€' [] (by simp [AnyBlank]) (by simp) (.one 5 (by decide) (by decide)) (by decide) (by decide)

example : Spoilt ['−', '5'] := .start [] '−' ['5'] (by simp [AnyBlank]) (by decide) (by decide)

example : AnyBlank [Char.ofNat 0xa0] ∧ Written ['5'] 5 :=
  ⟨by intro c hc; simp only [List.mem_cons, List.not_mem_nil, or_false] at hc; subst hc; right; decide,
   .plain [] ['5'] [] 5 (by simp [Blank]) (.one 5 (by decide) (by decide)) (.inl (by decide)) (by simp [Blank])⟩

/-- Non-vacuity: a gateway configured with `5€`. -/
example : (gateway (fun _ _ _ => 0) (fun k => if k = "SEARCH_PRICE" then ['5', '€'] else [])).searchPrice = 10 ^ 15 := by decide +kernel

end FcRetrieval.Config
