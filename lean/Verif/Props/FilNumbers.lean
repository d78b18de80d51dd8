import Verif.Props.FilAddress
import Verif.Lemmas.Config
/-!
# C168: addresses that are numbers
-/
set_option linter.unusedSimpArgs false

namespace FcRetrieval.FilAddress
open FcRetrieval.Config (Digits)

theorem digitChar_val : ∀ d, d < 10 → 48 ≤ (Nat.digitChar d).toNat ∧ (Nat.digitChar d).toNat ≤ 57 ∧ (Nat.digitChar d).toNat - 48 = d := by decide

theorem digitsVal_digits {s : List Char} {n : Nat} (h : Digits 10 s n) : s ≠ [] ∧ ∀ t, digitsVal 0 (s ++ t) = digitsVal n t := by
  induction h with
  | one d h1 h2 =>
    obtain ⟨a, b, c⟩ := digitChar_val d h2
    refine ⟨by simp, fun t => ?_⟩
    rw [List.singleton_append, digitsVal, if_pos ⟨a, b⟩, c]
    simp
  | more s n d _ h1 h2 ih =>
    obtain ⟨a, b, c⟩ := digitChar_val d h2
    refine ⟨by simp, fun t => ?_⟩
    rw [List.append_assoc, ih.2, List.singleton_append, digitsVal, if_pos ⟨a, b⟩, c]

/-- **C168**, numbers: after the letter of the network and a zero, at most twenty digits are the address of that number, if it is below 2⁶⁴; anything that is
not a digit makes the text no address. -/
theorem C168_numbers (rest : Char → List Char → Option (List UInt8)) (net : Char) (hn : net = 'f' ∨ net = 't') (s : List Char) (n : Nat) (h : Digits 10 s n) :
    (s.length ≤ 20 → read rest (net :: '0' :: s) = if n < 2 ^ 64 then some (.id n) else none) ∧
    (20 < s.length → read rest (net :: '0' :: s) = none) ∧
    (∀ c t, (∀ d, d < 10 → c ≠ Nat.digitChar d) → read rest (net :: '0' :: (s ++ c :: t)) = none) := by
  obtain ⟨hne, hv⟩ := digitsVal_digits h
  have hnet : ¬ (net ≠ 'f' ∧ net ≠ 't') := by rcases hn with rfl | rfl <;> simp
  have key : ∀ u : List Char, u ≠ [] → read rest (net :: '0' :: u) = if u.length > 84 then none else if u.length > 20 then none else (parseUint u).map .id := by
    intro u hu
    obtain ⟨c, u, rfl⟩ := List.exists_cons_of_ne_nil hu
    have hu : ¬ (net :: '0' :: c :: u = [] ∨ net :: '0' :: c :: u = undefText) := by
      rcases hn with rfl | rfl <;> simp [undefText]
    unfold read
    rw [if_neg hu]
    simp only [List.length_cons]
    by_cases hl : u.length + 1 > 84
    · rw [if_pos (by omega), if_pos hl]
    · rw [if_neg (by omega), if_neg hl, if_neg hnet, if_pos trivial]
  have h0 : digitsVal 0 s = some n := by have := hv []; rw [List.append_nil] at this; rw [this]; rfl
  refine ⟨fun hl => ?_, fun hl => ?_, fun c t hc => ?_⟩
  · rw [key s hne, if_neg (by omega), if_neg (by omega), parseUint, if_neg hne, h0]
    dsimp only
    split <;> rfl
  · rw [key s hne]
    split <;> rfl
  · rw [key _ (by simp)]
    split
    · rfl
    · split
      · rfl
      · rw [parseUint, if_neg (by simp), hv, digitsVal, if_neg]
        · rfl
        · rintro ⟨h1, h2⟩
          refine hc (c.toNat - 48) (by omega) ?_
          have : ∀ k, 48 ≤ k → k ≤ 57 → Char.ofNat k = Nat.digitChar (k - 48) := by
            intro k h1 h2
            rcases (by omega : k = 48 ∨ k = 49 ∨ k = 50 ∨ k = 51 ∨ k = 52 ∨ k = 53 ∨ k = 54 ∨ k = 55 ∨ k = 56 ∨ k = 57) with
              rfl | rfl | rfl | rfl | rfl | rfl | rfl | rfl | rfl | rfl <;> rfl
          rw [← this _ h1 h2, Char.ofNat_toNat]

/-- Non-vacuity: `t0101`. -/
example (rest : Char → List Char → Option (List UInt8)) : read rest ['t', '0', '1', '0', '1'] = some (.id 101) := by
  have h : Digits 10 ['1', '0', '1'] 101 := .more ['1', '0'] 10 1 (.more ['1'] 1 0 (.one 1 (by decide) (by decide)) (by decide) (by decide)) (by decide) (by decide)
  have := (C168_numbers rest 't' (.inr rfl) _ _ h).1 (by decide)
  simpa using this

end FcRetrieval.FilAddress
