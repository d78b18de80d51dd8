import Verif.Spec.Config
import Verif.Lemmas.Config
import Verif.Model.Startup
/-!
# C136 and C137: the configured amounts and durations
-/
set_option linter.unusedSimpArgs false

namespace FcRetrieval.Config
open FcRetrieval.Startup (Running gatewayMain providerMain)

/-- The settings of the gateway or the provider with this configuration. -/
def Configured (frac : Nat → Nat → Nat → Nat) (conf : String → List Char) (s : Settings) : Prop := s = gateway frac conf ∨ provider frac conf = .ok s

theorem configured_read {frac : Nat → Nat → Nat → Nat} {conf : String → List Char} {s : Settings} (h : Configured frac conf s) :
    s.refresh = duration frac 5000000000 (conf "REGISTER_REFRESH_DURATION") ∧ s.timeout = duration frac 100000000 (conf "TCP_INACTIVITY_TIMEOUT") ∧
    s.longTimeout = duration frac 5000000000 (conf "TCP_LONG_INACTIVITY_TIMEOUT") ∧ s.searchPrice = amount 1000000000000000 (conf "SEARCH_PRICE") ∧
    s.offerPrice = amount 1000000000000000 (conf "OFFER_PRICE") ∧ s.topup = amount 100000000000000000 (conf "TOPUP_AMOUNT") := by
  rcases h with rfl | h
  · exact ⟨rfl, rfl, rfl, rfl, rfl, rfl⟩
  · unfold provider at h
    cases hp : parseUint8 (conf "PROVIDER_SIG_ALG") with
    | ok n =>
      rw [hp] at h
      cases h
      exact ⟨rfl, rfl, rfl, rfl, rfl, rfl⟩
    | err => rw [hp] at h; cases h
    | panic => rw [hp] at h; cases h

theorem sscan_written {t : List Char} {n : Int} (h : Written t n) : sscan t = some n := by
  cases h with
  | plain pre s post n h1 h2 h3 h4 => rw [sscan_blank h1, sscan_numeral h2, scanNat_blank h2 h3 h4]; rfl
  | plus pre s post n h1 h2 h3 h4 =>
    rw [sscan_blank h1, List.cons_append, sscan_head (by decide), scanInt, if_neg (by decide), if_pos rfl, scanNat_blank h2 h3 h4]; rfl
  | minus pre s post n h1 h2 h3 h4 =>
    rw [sscan_blank h1, List.cons_append, sscan_head (by decide), scanInt, if_pos rfl, scanNat_blank h2 h3 h4]; rfl

theorem sscan_noNumber {t : List Char} (h : NoNumber t) : sscan t = none := by
  cases h with
  | blank _ h1 =>
    have := sscan_blank h1 []
    rw [List.append_nil] at this
    rw [this]
    rfl
  | word pre c t h1 h2 h3 h4 h5 =>
    have hd := other_digit h2
    have h128 := h2.1
    have hs : isSpace c = false := by
      unfold isSpace
      simp only [Bool.or_eq_false_iff, Bool.and_eq_false_iff, decide_eq_false_iff_not, beq_eq_false_iff_ne]
      omega
    have h0 : c ≠ '0' := h2.2.2 0 (by decide)
    rw [sscan_blank h1, sscan_head hs, scanInt_unsigned _ _ h5 h4, scanNat_plain _ _ h0, scanDigits, if_neg (by omega), if_neg h2.2.1, if_pos (by omega)]
    rfl

/-- **C136** (partial): if the text in the configuration is a whole decimal number without a superfluous leading zero, then the search price, the offer price
and the top-up amount are that number. -/
theorem C136_partial (frac : Nat → Nat → Nat → Nat) (conf : String → List Char) (s : Settings) (h : Configured frac conf s) (n : Int) :
    (Written (conf "SEARCH_PRICE") n → s.searchPrice = n) ∧ (Written (conf "OFFER_PRICE") n → s.offerPrice = n) ∧ (Written (conf "TOPUP_AMOUNT") n → s.topup = n) := by
  obtain ⟨-, -, -, e1, e2, e3⟩ := configured_read h
  refine ⟨fun hw => ?_, fun hw => ?_, fun hw => ?_⟩
  · rw [e1, amount, sscan_written hw]; rfl
  · rw [e2, amount, sscan_written hw]; rfl
  · rw [e3, amount, sscan_written hw]; rfl

/-- **C136**: if the text is missing or begins like a word, they are 10¹⁵, 10¹⁵ and 10¹⁷. -/
theorem C136_default (frac : Nat → Nat → Nat → Nat) (conf : String → List Char) (s : Settings) (h : Configured frac conf s) :
    (NoNumber (conf "SEARCH_PRICE") → s.searchPrice = 10 ^ 15) ∧ (NoNumber (conf "OFFER_PRICE") → s.offerPrice = 10 ^ 15) ∧ (NoNumber (conf "TOPUP_AMOUNT") → s.topup = 10 ^ 17) := by
  obtain ⟨-, -, -, e1, e2, e3⟩ := configured_read h
  refine ⟨fun hw => ?_, fun hw => ?_, fun hw => ?_⟩
  · rw [e1, amount, sscan_noNumber hw]; rfl
  · rw [e2, amount, sscan_noNumber hw]; rfl
  · rw [e3, amount, sscan_noNumber hw]; rfl

/-- **C136**, refuted: a number is read only up to the first character that is not a digit, whatever follows; `0.001`, which is how the comments in the code
write the default, is a price of zero, `1.5` is one, and `1e18` is one. -/
theorem C136_suffix_refuted (frac : Nat → Nat → Nat → Nat) (conf : String → List Char) (s : Settings) (h : Configured frac conf s) (t : List Char) :
    (conf "SEARCH_PRICE" = '0' :: '.' :: t → s.searchPrice = 0) ∧
    (∀ m n c, Numeral 10 m n → m.head? ≠ some '0' → Other c → conf "SEARCH_PRICE" = m ++ c :: t → s.searchPrice = n) := by
  obtain ⟨-, -, -, e1, -⟩ := configured_read h
  constructor
  · intro he
    rw [e1, he, amount, show '0' = Nat.digitChar 0 from rfl, sscan_digits (by decide)]
    have : scanNat ('0' :: '.' :: t) = some 0 := scanNat_zero (.inr ⟨'.', t, rfl, by decide, by decide, by decide⟩) (by
      intro c t' h'
      cases h'
      decide)
    rw [show Nat.digitChar 0 = '0' from rfl, this]
    rfl
  · intro m n c hm h0 hc he
    rw [e1, he, amount, sscan_numeral hm, scanNat_numeral hm h0 (.inr ⟨c, t, rfl, hc⟩)]
    rfl

theorem hexDigit_facts : ∀ x ∈ hexDigits, x.1.toNat < 128 ∧ x.1 ≠ '_' ∧ digit x.1 = x.2 := by decide

theorem scan_based {b : Nat} {s : List Char} {n : Nat} (h : Based b s n) :
    ∃ k, 0 < k ∧ ∀ rest prev bad, scanDigits b (s ++ rest) prev bad 0 0 = scanDigits b rest .digit bad k n := by
  induction h with
  | one c d hc hd =>
    obtain ⟨h1, h2, h3⟩ : c.toNat < 128 ∧ c ≠ '_' ∧ digit c = d := hexDigit_facts _ hc
    refine ⟨1, by decide, fun rest prev bad => ?_⟩
    rw [List.cons_append, List.nil_append, scanDigits, if_neg (by omega), if_neg h2, if_neg (by rw [h3]; exact Nat.not_le.2 hd), h3]
    simp
  | more s n c d _ hc hd ih =>
    obtain ⟨k, hk, ih⟩ := ih
    obtain ⟨h1, h2, h3⟩ : c.toNat < 128 ∧ c ≠ '_' ∧ digit c = d := hexDigit_facts _ hc
    refine ⟨k + 1, by omega, fun rest prev bad => ?_⟩
    rw [List.append_assoc, ih, List.cons_append, List.nil_append, scanDigits, if_neg (by omega), if_neg h2, if_neg (by rw [h3]; exact Nat.not_le.2 hd), h3]

theorem radix_facts : ∀ x ∈ radixes, ∀ cs, scanNat ('0' :: x.1 :: cs) = scanned false (scanDigits x.2 cs .digit false 0 0) := by
  intro x hx cs
  simp only [radixes, List.mem_cons, List.not_mem_nil, or_false] at hx
  rcases hx with rfl | rfl | rfl | rfl | rfl | rfl <;> rfl

/-- **C136**, other notations: `0x`, `0o` or `0b` and digits is the number to the base sixteen, eight or two; such a prefix alone is no number. -/
theorem C136_radix (frac : Nat → Nat → Nat → Nat) (conf : String → List Char) (s : Settings) (h : Configured frac conf s) (r : Char) (b : Nat) (hr : (r, b) ∈ radixes) :
    (∀ t n, Based b t n → conf "SEARCH_PRICE" = '0' :: r :: t → s.searchPrice = n) ∧ (conf "SEARCH_PRICE" = ['0', r] → s.searchPrice = 10 ^ 15) := by
  obtain ⟨-, -, -, e1, -⟩ := configured_read h
  have hs : ∀ t, sscan ('0' :: r :: t) = (scanNat ('0' :: r :: t)).map (fun n => (n : Int)) := fun t => sscan_digits (d := 0) (by decide) (r :: t)
  constructor
  · intro t n ht he
    obtain ⟨k, hk, ht⟩ := scan_based ht
    have := ht [] .digit false
    rw [List.append_nil, scanDigits] at this
    rw [e1, he, amount, hs, radix_facts _ hr, this, scanned, if_neg (by decide), if_neg (by omega)]
    rfl
  · intro he
    rw [e1, he, amount, hs, radix_facts _ hr, scanDigits, scanned, if_neg (by decide), if_pos rfl]
    rfl
example : Based 16 ['f', 'F'] 255 := .more ['f'] 15 'F' 15 (.one 'f' 15 (by decide) (by decide)) (by decide) (by decide)
example (frac : Nat → Nat → Nat → Nat) : (gateway frac (fun _ => ['0', 'x', 'f', 'F'])).searchPrice = 255 :=
  (C136_radix frac _ _ (.inl rfl) 'x' 16 (by decide)).1 _ _ (.more ['f'] 15 'F' 15 (.one 'f' 15 (by decide) (by decide)) (by decide) (by decide)) rfl

theorem isDigit_char {c : Char} (h : isDigit c = true) : ∃ d, d < 10 ∧ c = Nat.digitChar d ∧ c.toNat - 48 = d := by
  have h : 48 ≤ c.toNat ∧ c.toNat ≤ 57 := by simpa [isDigit] using h
  have key : ∀ n, n < 58 → 48 ≤ n → ∃ d, d < 10 ∧ Char.ofNat n = Nat.digitChar d ∧ n - 48 = d := by decide
  obtain ⟨d, h1, h2, h3⟩ := key c.toNat (by omega) h.1
  exact ⟨d, h1, by rw [← h2, Char.ofNat_toNat], h3⟩

theorem isDigit_digitChar : ∀ d, d < 10 → isDigit (Nat.digitChar d) = true ∧ (Nat.digitChar d).toNat - 48 = d := by decide

theorem uint8_append : ∀ (s t : List Char) (n : Nat), uint8Digits (s ++ t) n = (uint8Digits s n).bind (uint8Digits t)
  | [], t, n => by simp [uint8Digits]
  | c :: s, t, n => by
    rw [List.cons_append, uint8Digits, uint8Digits]
    split
    · split
      · rfl
      · exact uint8_append s t _
    · rfl

theorem uint8_digits {s : List Char} {n : Nat} (h : Digits 10 s n) : uint8Digits s 0 = if n ≤ 255 then some n else none := by
  induction h with
  | one d _ hd =>
    obtain ⟨h1, h2⟩ := isDigit_digitChar d hd
    rw [uint8Digits, if_pos h1, h2, if_neg (by omega), uint8Digits, if_pos (by omega)]
    simp
  | more s n d _ _ hd ih =>
    obtain ⟨h1, h2⟩ := isDigit_digitChar d hd
    rw [uint8_append, ih]
    by_cases hn : n ≤ 255
    · rw [if_pos hn, Option.bind_some, uint8Digits, if_pos h1, h2]
      by_cases h : n * 10 + d ≤ 255
      · rw [if_neg (by omega), if_pos h, uint8Digits]
      · rw [if_pos (by omega), if_neg h]
    · rw [if_neg hn, if_neg (by omega)]
      rfl

theorem digits_of_uint8 : ∀ (t : List Char) {s : List Char} {m n : Nat}, Digits 10 s m → uint8Digits t m = some n → Digits 10 (s ++ t) n
  | [], s, m, n, hs, h => by
    cases h
    simpa using hs
  | c :: t, s, m, n, hs, h => by
    unfold uint8Digits at h
    split at h
    · rename_i hc
      obtain ⟨d, h1, rfl, h3⟩ := isDigit_char hc
      rw [h3] at h
      split at h
      · cases h
      · have := digits_of_uint8 t (.more s m d hs h1 h1) h
        simpa using this
    · cases h

/-- **C139**, before any port: a provider reads its configuration exactly if the setting of the signature algorithm is a number of at most 255 in decimal digits, and
panics otherwise; a gateway always reads its configuration. -/
theorem C139_algorithm (frac : Nat → Nat → Nat → Nat) (conf : String → List Char) :
    ((∃ s, provider frac conf = .ok s) ↔ ∃ n, n ≤ 255 ∧ Digits 10 (conf "PROVIDER_SIG_ALG") n) ∧ ((∀ s, provider frac conf ≠ .ok s) → provider frac conf = .panic) := by
  unfold provider parseUint8
  generalize conf "PROVIDER_SIG_ALG" = t
  constructor
  · constructor
    · rintro ⟨s, h⟩
      split at h <;> rename_i hp
      · split at hp
        · cases hp
        · rename_i hne
          split at hp <;> rename_i n' hu
          · cases hp
            cases t with
            | nil => exact absurd rfl hne
            | cons c t =>
              have hu0 := hu
              unfold uint8Digits at hu
              split at hu
              · rename_i hc
                obtain ⟨d, h1, rfl, h3⟩ := isDigit_char hc
                rw [h3] at hu
                split at hu
                · cases hu
                · have hD := digits_of_uint8 t (s := [Nat.digitChar d]) (m := 0 * 10 + d) (by simpa using Digits.one d h1 h1) hu
                  refine ⟨_, ?_, hD⟩
                  have := uint8_digits hD
                  rw [List.singleton_append, hu0] at this
                  split at this
                  · assumption
                  · cases this
              · cases hu
          · cases hp
      · cases h
      · cases h
    · rintro ⟨n, hn, hD⟩
      have hne : t ≠ [] := by
        rintro rfl
        obtain ⟨d, t', -, h⟩ := digits_head hD
        cases h
      rw [if_neg hne, uint8_digits hD, if_pos hn]
      exact ⟨_, rfl⟩
  · intro h
    by_cases ht : t = []
    · rw [if_pos ht]
    · rw [if_neg ht] at h ⊢
      cases hu : uint8Digits t 0 with
      | some n => rw [hu] at h; exact absurd rfl (h _)
      | none => rfl
example (frac : Nat → Nat → Nat → Nat) : (∃ s, provider frac (fun _ => ['1']) = .ok s) ∧ ¬ ∃ s, provider frac (fun _ => []) = .ok s := by
  constructor
  · exact (C139_algorithm frac _).1.2 ⟨1, by decide, .one 1 (by decide) (by decide)⟩
  · intro h
    obtain ⟨n, -, h⟩ := (C139_algorithm frac _).1.1 h
    obtain ⟨d, t, -, h⟩ := digits_head h
    cases h

theorem numeral_octal {s : List Char} {n : Nat} (h : Numeral 8 s n) : ∃ m, Numeral 10 ('0' :: s) m ∧ n ≤ m ∧ (8 ≤ n → n < m) := by
  induction h with
  | one d h1 h2 =>
    refine ⟨0 * 10 + d, ?_, by omega, by omega⟩
    exact .more ['0'] 0 d (.one 0 (by decide) (by decide)) (by omega) h2
  | more s n d _ h1 h2 ih =>
    obtain ⟨m, hm, h3, h4⟩ := ih
    exact ⟨m * 10 + d, .more _ _ _ hm (by omega) h2, by omega, by omega⟩
  | group s n d _ h1 h2 ih =>
    obtain ⟨m, hm, h3, h4⟩ := ih
    exact ⟨m * 10 + d, .group _ _ _ hm (by omega) h2, by omega, by omega⟩

theorem scanNat_octal (d : Nat) (hd : d < 10) (t : List Char) : scanNat ('0' :: Nat.digitChar d :: t) = scanned true (scanDigits 8 (Nat.digitChar d :: t) .digit false 0 0) := by
  have h : ∀ d, d < 10 → ¬ 128 ≤ (Nat.digitChar d).toNat ∧ ¬ (Nat.digitChar d = 'b' ∨ Nat.digitChar d = 'B') ∧ ¬ (Nat.digitChar d = 'o' ∨ Nat.digitChar d = 'O') ∧
    ¬ (Nat.digitChar d = 'x' ∨ Nat.digitChar d = 'X') := by decide
  obtain ⟨h1, h2, h3, h4⟩ := h d hd
  rw [scanNat, if_pos rfl, if_neg h1, if_neg h2, if_neg h3, if_neg h4]

/-- **C136**, refuted: a number with a leading zero is read to the base eight, which gives a smaller price; `0100` is a price of 64, and `0900` a price of zero. -/
theorem C136_leading_zero_refuted (frac : Nat → Nat → Nat → Nat) (conf : String → List Char) (s : Settings) (h : Configured frac conf s) :
    (∀ t n, Numeral 8 t n → 8 ≤ n → conf "SEARCH_PRICE" = '0' :: t → s.searchPrice = n ∧ ∃ m : Nat, Numeral 10 (conf "SEARCH_PRICE") m ∧ s.searchPrice < m) ∧
    (∀ d t, d = 8 ∨ d = 9 → conf "SEARCH_PRICE" = '0' :: Nat.digitChar d :: t → s.searchPrice = 0) := by
  obtain ⟨-, -, -, e1, -⟩ := configured_read h
  constructor
  · intro t n ht h8 he
    obtain ⟨m, hm, -, hlt⟩ := numeral_octal ht
    obtain ⟨d, t', hd, rfl⟩ := numeral_head ht
    have hn : s.searchPrice = n := by
      have := scan_numeral_ends (by decide) ht (rest := []) (.inl rfl) .digit true
      rw [List.append_nil] at this
      rw [e1, he, amount, show '0' = Nat.digitChar 0 from rfl, sscan_digits (by decide), show Nat.digitChar 0 = '0' from rfl, scanNat_octal d hd, this]
      rfl
    refine ⟨hn, m, by rw [he]; exact hm, ?_⟩
    rw [hn]
    exact Int.ofNat_lt.mpr (hlt h8)
  · intro d t hd he
    have hd' : d < 10 := by omega
    obtain ⟨f1, f2, f3, -⟩ := digitChar_facts d hd'
    rw [e1, he, amount, show '0' = Nat.digitChar 0 from rfl, sscan_digits (by decide), show Nat.digitChar 0 = '0' from rfl, scanNat_octal d hd', scanDigits,
      if_neg (by omega), if_neg f3, f1, if_pos (by omega)]
    rfl

/-! ## durations -/

theorem leadingInt_all {s : List Char} {n : Nat} (h : Digits 10 s n) (hn : n < 2 ^ 63) : leadingInt s 0 = some (n, []) := by
  have := leadingInt_digits h hn []
  rw [List.append_nil] at this
  rw [this]
  rfl

/-- **C137** (partial): the timeouts of the connections between nodes are the configured durations, given as whole numbers with units. -/
theorem C137_partial (frac : Nat → Nat → Nat → Nat) (conf : String → List Char) (s : Settings) (h : Configured frac conf s) (n : Nat) (hn : n < 2 ^ 63) :
    (Times (conf "TCP_INACTIVITY_TIMEOUT") n → s.timeout = n) ∧ (Times (conf "TCP_LONG_INACTIVITY_TIMEOUT") n → s.longTimeout = n) ∧
    (∀ free r, Times (conf "TCP_INACTIVITY_TIMEOUT") n → gatewayMain free s = some r → r.timeout = n) ∧
    (∀ free r, Times (conf "TCP_INACTIVITY_TIMEOUT") n → providerMain free s = some r → r.timeout = n) := by
  obtain ⟨-, e1, e2, -⟩ := configured_read h
  have key : Times (conf "TCP_INACTIVITY_TIMEOUT") n → s.timeout = n := fun ht => by rw [e1, duration, parseDuration_times frac ht hn]; rfl
  refine ⟨key, fun ht => ?_, fun free r ht hr => ?_, fun free r ht hr => ?_⟩
  · rw [e2, duration, parseDuration_times frac ht hn]; rfl
  · unfold gatewayMain at hr
    simp only at hr
    split at hr
    · cases hr
    · cases hr
      exact key ht
  · unfold providerMain at hr
    simp only at hr
    split at hr
    · cases hr
    · cases hr
      exact key ht

/-- **C137**: a duration that is missing or has no unit is not accepted, and the default is used: a tenth of a second, and five seconds. -/
theorem C137_default (frac : Nat → Nat → Nat → Nat) (conf : String → List Char) (s : Settings) (h : Configured frac conf s) :
    (conf "TCP_INACTIVITY_TIMEOUT" = [] ∨ (∃ n, n < 2 ^ 63 ∧ Digits 10 (conf "TCP_INACTIVITY_TIMEOUT") n ∧ conf "TCP_INACTIVITY_TIMEOUT" ≠ ['0']) → s.timeout = 10 ^ 8) ∧
    (conf "TCP_LONG_INACTIVITY_TIMEOUT" = [] ∨ (∃ n, n < 2 ^ 63 ∧ Digits 10 (conf "TCP_LONG_INACTIVITY_TIMEOUT") n ∧ conf "TCP_LONG_INACTIVITY_TIMEOUT" ≠ ['0']) →
      s.longTimeout = 5 * 10 ^ 9) := by
  obtain ⟨-, e1, e2, -⟩ := configured_read h
  have key : ∀ t : List Char, t = [] ∨ (∃ n, n < 2 ^ 63 ∧ Digits 10 t n ∧ t ≠ ['0']) → parseDuration frac t = none := by
    rintro t (rfl | ⟨n, hn, hd, h0⟩)
    · rfl
    · have hl := leadingInt_all hd hn
      obtain ⟨d, t', hd', rfl⟩ := digits_head hd
      obtain ⟨-, -, -, -, f1, f2, f3, -⟩ := digitChar_facts d hd'
      unfold parseDuration
      simp only [List.head?_cons, Option.some.injEq, f2, f3, or_self, if_false]
      rw [if_neg h0, if_neg (by simp)]
      rw [show (Nat.digitChar d :: t').length = t'.length + 1 from rfl, durations, if_neg (by simp [f1]), hl]
      simp [f1]
  refine ⟨fun ht => ?_, fun ht => ?_⟩
  · rw [e1, duration, key _ ht]; rfl
  · rw [e2, duration, key _ ht]; rfl

/-- **C137**, refuted: whatever interval is configured for asking the register, gateways and providers ask every ten seconds. -/
theorem C137_refuted (frac : Nat → Nat → Nat → Nat) (conf : String → List Char) (s : Settings) (h : Configured frac conf s) (n : Nat) (hn : n < 2 ^ 63)
    (hc : Times (conf "REGISTER_REFRESH_DURATION") n) : s.refresh = n ∧
    (∀ free r, gatewayMain free s = some r → r.refresh = 10 * 10 ^ 9) ∧ (∀ free r, providerMain free s = some r → r.refresh = 10 * 10 ^ 9) := by
  obtain ⟨e1, -⟩ := configured_read h
  refine ⟨?_, fun free r hr => ?_, fun free r hr => ?_⟩
  · rw [e1, duration, parseDuration_times frac hc hn]; rfl
  · unfold gatewayMain at hr
    simp only at hr
    split at hr
    · cases hr
    · cases hr
      rfl
  · unfold providerMain at hr
    simp only at hr
    split at hr
    · cases hr
    · cases hr
      rfl

/-- **C137**, refuted: a negative duration is accepted. -/
theorem C137_negative_refuted (frac : Nat → Nat → Nat → Nat) (conf : String → List Char) (s : Settings) (h : Configured frac conf s) (t : List Char) (n : Nat) (hn : n < 2 ^ 63) (ht : Times t n)
    (hc : conf "TCP_INACTIVITY_TIMEOUT" = '-' :: t) : s.timeout = -(n : Int) := by
  obtain ⟨-, e1, -⟩ := configured_read h
  rw [e1, hc, duration, parseDuration_negative frac ht hn]; rfl

/-! ## examples -/

/-- A configuration with one variable set. -/
def exConf (key : String) (value : List Char) : String → List Char := fun k => if k = key then value else []

theorem exNumeral : Numeral 10 ['2', '5', '_', '0'] 250 := .group ['2', '5'] 25 0 (.more ['2'] 2 5 (.one 2 (by decide) (by decide)) (by decide) (by decide)) (by decide) (by decide)

theorem exTimes : Times ['1', 'h', '3', '0', 'm'] 5400000000000 :=
  .more ['1'] ['h'] ['3', '0', 'm'] 1 3600000000000 1800000000000 (.one 1 (by decide) (by decide)) (by decide)
    (.one ['3', '0'] ['m'] 30 60000000000 (.more ['3'] 3 0 (.one 3 (by decide) (by decide)) (by decide) (by decide)) (by decide))

/-- ` 25_0` is a price of 250. -/
example (frac : Nat → Nat → Nat → Nat) : (gateway frac (exConf "SEARCH_PRICE" [' ', '2', '5', '_', '0'])).searchPrice = 250 :=
  (C136_partial frac _ _ (.inl rfl) 250).1 (.plain [' '] ['2', '5', '_', '0'] [] 250 (by unfold Blank; decide) exNumeral (.inl (by decide)) (by unfold Blank; decide))

/-- A refund of 250. -/
example (frac : Nat → Nat → Nat → Nat) : (gateway frac (exConf "OFFER_PRICE" ['-', '2', '5', '_', '0', '\n'])).offerPrice = -250 :=
  (C136_partial frac _ _ (.inl rfl) (-250)).2.1 (.minus [] ['2', '5', '_', '0'] ['\n'] 250 (by unfold Blank; decide) exNumeral (.inl (by decide)) (by unfold Blank; decide))

example (frac : Nat → Nat → Nat → Nat) : (gateway frac (exConf "TOPUP_AMOUNT" [])).topup = 10 ^ 17 := (C136_default frac _ _ (.inl rfl)).2.2 (.blank _ (by unfold Blank; decide))

example (frac : Nat → Nat → Nat → Nat) : (gateway frac (exConf "OFFER_PRICE" ['n', 'i', 'l'])).offerPrice = 10 ^ 15 :=
  (C136_default frac _ _ (.inl rfl)).2.1 (.word [] 'n' ['i', 'l'] (by unfold Blank; decide) ⟨by decide, by decide, by decide⟩ (by decide) (by decide) (by decide))

/-- The provider, with a signature algorithm. -/
example (frac : Nat → Nat → Nat → Nat) (s : Settings) (h : provider frac (fun k => if k = "PROVIDER_SIG_ALG" then ['1'] else exConf "SEARCH_PRICE" ['0', '.', '0', '0', '1'] k) = .ok s) :
    s.searchPrice = 0 := (C136_suffix_refuted frac _ s (.inr h) ['0', '0', '1']).1 rfl

example (frac : Nat → Nat → Nat → Nat) : ∃ s, provider frac (fun k => if k = "PROVIDER_SIG_ALG" then ['1'] else exConf "SEARCH_PRICE" ['0', '.', '0', '0', '1'] k) = .ok s := ⟨_, rfl⟩

/-- `25_0FIL`. -/
example (frac : Nat → Nat → Nat → Nat) : (gateway frac (exConf "SEARCH_PRICE" ['2', '5', '_', '0', 'F', 'I', 'L'])).searchPrice = 250 :=
  (C136_suffix_refuted frac _ _ (.inl rfl) ['I', 'L']).2 ['2', '5', '_', '0'] 250 'F' exNumeral (by decide) ⟨by decide, by decide, by decide⟩ rfl

/-- `010` is eight. -/
example (frac : Nat → Nat → Nat → Nat) : (gateway frac (exConf "SEARCH_PRICE" ['0', '1', '0'])).searchPrice = 8 :=
  ((C136_leading_zero_refuted frac _ _ (.inl rfl)).1 ['1', '0'] 8 (.more ['1'] 1 0 (.one 1 (by decide) (by decide)) (by decide) (by decide)) (by decide) rfl).1

example (frac : Nat → Nat → Nat → Nat) : (gateway frac (exConf "SEARCH_PRICE" ['0', '9', '0', '0'])).searchPrice = 0 :=
  (C136_leading_zero_refuted frac _ _ (.inl rfl)).2 9 ['0', '0'] (.inr rfl) rfl

/-- `1h30m`, and the same without the units. -/
example (frac : Nat → Nat → Nat → Nat) : (gateway frac (exConf "TCP_INACTIVITY_TIMEOUT" ['1', 'h', '3', '0', 'm'])).timeout = 5400000000000 :=
  (C137_partial frac _ _ (.inl rfl) 5400000000000 (by decide)).1 exTimes

example (frac : Nat → Nat → Nat → Nat) : (gateway frac (exConf "TCP_INACTIVITY_TIMEOUT" ['9'])).timeout = 10 ^ 8 :=
  (C137_default frac _ _ (.inl rfl)).1 (.inr ⟨9, by decide, .one 9 (by decide) (by decide), by decide⟩)

example (frac : Nat → Nat → Nat → Nat) : (gateway frac (exConf "TCP_INACTIVITY_TIMEOUT" ['-', '1', 'h', '3', '0', 'm'])).timeout = -5400000000000 :=
  C137_negative_refuted frac _ _ (.inl rfl) _ 5400000000000 (by decide) exTimes rfl

/-- The register is to be asked every 90 minutes, and every port is free: the gateway starts, and asks every ten seconds. -/
def exPorts (refresh : List Char) : String → List Char := fun k =>
  if k = "BIND_REST_API" then ['1'] else if k = "BIND_ADMIN_API" then ['2'] else if k = "BIND_GATEWAY_API" then ['3'] else if k = "BIND_PROVIDER_API" then ['4']
  else exConf "REGISTER_REFRESH_DURATION" refresh k

theorem exPorts_starts (frac : Nat → Nat → Nat → Nat) (refresh : List Char) : (gatewayMain (fun _ => true) (gateway frac (exPorts refresh))).isSome = true := by
  unfold gatewayMain
  have : Startup.listenTcp (fun _ => true) [(gateway frac (exPorts refresh)).gatewayAPI, (gateway frac (exPorts refresh)).providerAPI]
      (Startup.listenHttp (fun _ => true) [(gateway frac (exPorts refresh)).adminAPI, (gateway frac (exPorts refresh)).restAPI] []) = some ["2", "1", "3", "4"] := by
    rfl
  simp only [this]
  rfl

example (frac : Nat → Nat → Nat → Nat) : ∃ r, gatewayMain (fun _ => true) (gateway frac (exPorts ['1', 'h', '3', '0', 'm'])) = some r ∧ r.refresh = 10 * 10 ^ 9 := by
  obtain ⟨r, hr⟩ := Option.isSome_iff_exists.mp (exPorts_starts frac ['1', 'h', '3', '0', 'm'])
  exact ⟨r, hr, (C137_refuted frac _ _ (.inl rfl) 5400000000000 (by decide) exTimes).2.1 _ r hr⟩

end FcRetrieval.Config
