import Verif.Spec.EnvFile
/-!
# Helper lemmas for the environment file
-/

set_option linter.unusedSimpArgs false

namespace FcRetrieval.EnvFile

theorem split_none {sep : Char} {l : List Char} (h : sep ∉ l) : split sep l = [l] := by
  induction l with
  | nil => rfl
  | cons c r ih =>
    simp only [List.mem_cons, not_or] at h
    rw [split, if_neg (fun e => h.1 e.symm), ih h.2]

theorem split_mem {sep : Char} {l : List Char} (h : sep ∈ l) :
    split sep l = l.takeWhile (· ≠ sep) :: split sep ((l.dropWhile (· ≠ sep)).drop 1) := by
  induction l with
  | nil => cases h
  | cons c r ih =>
    rw [split]
    by_cases e : c = sep
    · simp [e]
    · have hr : sep ∈ r := by
        cases h with
        | head => exact absurd rfl e
        | tail _ h => exact h
      rw [if_neg e, ih hr]
      simp [e]

theorem split_ne_nil (sep : Char) (l : List Char) : split sep l ≠ [] := by
  cases l with
  | nil => simp [split]
  | cons c r =>
    rw [split]
    split
    · simp
    · split <;> simp

theorem takeWhile_self {sep : Char} {l : List Char} (h : sep ∉ l) : l.takeWhile (· ≠ sep) = l := by
  induction l with
  | nil => rfl
  | cons c r ih =>
    simp only [List.mem_cons, not_or] at h
    rw [List.takeWhile_cons_of_pos (by simpa using fun e : c = sep => h.1 e.symm), ih h.2]

theorem split_head (sep : Char) (l : List Char) : ∃ t, split sep l = l.takeWhile (· ≠ sep) :: t := by
  by_cases h : sep ∈ l
  · exact ⟨_, split_mem h⟩
  · refine ⟨[], ?_⟩
    rw [split_none h]
    congr 1
    symm
    exact takeWhile_self h

theorem parseLine_mem {l : List Char} (h : '=' ∈ l) :
    parseLine l = some [⟨l.takeWhile (· ≠ '='), ((l.dropWhile (· ≠ '=')).drop 1).takeWhile (· ≠ '=')⟩] := by
  have ⟨t, ht⟩ := split_head '=' ((l.dropWhile (· ≠ '=')).drop 1)
  rw [parseLine, if_pos h, split_mem h, ht]

theorem count_drop {l : List Char} (h : '=' ∈ l) (hc : l.count '=' ≤ 1) : '=' ∉ (l.dropWhile (· ≠ '=')).drop 1 := by
  induction l with
  | nil => cases h
  | cons c r ih =>
    by_cases e : c = '='
    · subst e
      simp only [List.count_cons_self] at hc
      simp only [ne_eq, decide_not, decide_true, Bool.not_true, Bool.false_eq_true, not_false_eq_true, List.dropWhile_cons_of_neg, List.drop_succ_cons,
        List.drop_zero]
      exact List.count_eq_zero.1 (by omega)
    · have hr : '=' ∈ r := by
        cases h with
        | head => exact absurd rfl e
        | tail _ h => exact h
      rw [List.count_cons_of_ne e] at hc
      have := ih hr hc
      simpa [e] using this

theorem parseLine_plain {l : List Char} (h : '=' ∈ l) (hc : l.count '=' ≤ 1) :
    parseLine l = some [⟨l.takeWhile (· ≠ '='), (l.dropWhile (· ≠ '=')).drop 1⟩] := by
  rw [parseLine_mem h]
  congr 3
  exact takeWhile_self (count_drop h hc)

theorem comment_iff (l : List Char) : comment l = true ↔ l.head? = some '#' ∨ ∀ c ∈ l, c.toNat ∈ [9, 10, 12, 13, 32] := by
  simp only [comment, Bool.or_eq_true, decide_eq_true_eq, List.all_eq_true]
  have (c : Char) : ((((c = '\t' ∨ c = '\n') ∨ c.toNat = 12) ∨ c = '\r') ∨ c = ' ') ↔ c.toNat ∈ [9, 10, 12, 13, 32] := by
    have ch (c d : Char) : c = d ↔ c.toNat = d.toNat := ⟨fun e => e ▸ rfl, fun e => Char.ext (UInt32.toNat_inj.1 e)⟩
    rw [ch c '\t', ch c '\n', ch c '\r', ch c ' ']
    simp only [List.mem_cons, List.not_mem_nil, or_false]
    show ((((c.toNat = 9 ∨ c.toNat = 10) ∨ c.toNat = 12) ∨ c.toNat = 13) ∨ c.toNat = 32) ↔ _
    omega
  simp only [this]

theorem parseLine_some (l : List Char) :
    (∃ cs, parseLine l = some cs) ↔ ('=' ∈ l ∨ l.head? = some '#' ∨ ∀ c ∈ l, c.toNat ∈ [9, 10, 12, 13, 32]) := by
  by_cases h : '=' ∈ l
  · simp [parseLine_mem h, h]
  · rw [parseLine, if_neg h]
    rw [← comment_iff]
    cases comment l <;> simp [h]

theorem parseLines_some (ls : List (List Char)) :
    (∃ cs, parseLines ls = some cs) ↔ ∀ l ∈ ls, ('=' ∈ l ∨ l.head? = some '#' ∨ ∀ c ∈ l, c.toNat ∈ [9, 10, 12, 13, 32]) := by
  induction ls with
  | nil => simp [parseLines]
  | cons l r ih =>
    rw [List.forall_mem_cons, ← ih, ← parseLine_some]
    constructor
    · rintro ⟨cs, h⟩
      rw [parseLines] at h
      split at h
      · next a b ha hb => exact ⟨⟨_, ha⟩, ⟨_, hb⟩⟩
      · cases h
    · rintro ⟨⟨a, ha⟩, ⟨b, hb⟩⟩
      exact ⟨a ++ b, by rw [parseLines, ha, hb]⟩

theorem parse_some (text : List Char) : (∃ cs, parse text = some cs) ↔ Readable text := parseLines_some _

/-! ## The comparison -/

theorem takeOut_none {n : List Char} {l : List Config} : takeOut n l = none ↔ l.filter (fun c => c.name = n) = [] := by
  induction l with
  | nil => simp [takeOut]
  | cons d r ih =>
    rw [takeOut]
    by_cases e : n = d.name
    · simp [e]
    · have e' : ¬ d.name = n := fun c => e c.symm
      rw [if_neg e]
      simp only [List.filter_cons, e', decide_false, Bool.false_eq_true, if_false]
      rw [← ih]
      cases takeOut n r <;> simp

theorem takeOut_some {n : List Char} {l l' : List Config} {x : Config} (h : takeOut n l = some (x, l')) :
    x.name = n ∧ ∀ m, l.filter (fun c => c.name = m) = if m = n then x :: l'.filter (fun c => c.name = m) else l'.filter (fun c => c.name = m) := by
  induction l generalizing l' with
  | nil => cases h
  | cons d r ih =>
    rw [takeOut] at h
    by_cases e : n = d.name
    · rw [if_pos e] at h
      cases h
      refine ⟨e.symm, ?_⟩
      intro m
      by_cases hm : m = n
      · simp [hm, e]
      · have : ¬ x.name = m := fun c => hm (c.symm.trans e.symm)
        simp [hm, this]
    · rw [if_neg e] at h
      cases hr : takeOut n r with
      | none => rw [hr] at h; cases h
      | some p =>
        obtain ⟨y, r'⟩ := p
        rw [hr] at h
        simp only [Option.some.injEq, Prod.mk.injEq] at h
        obtain ⟨rfl, rfl⟩ := h
        have ⟨h1, h2⟩ := ih hr
        refine ⟨h1, ?_⟩
        intro m
        have hm := h2 m
        by_cases hmn : m = n
        · subst hmn
          have : ¬ d.name = m := fun c => e c.symm
          simp only [if_pos] at hm ⊢
          simp [List.filter_cons, this, hm]
        · simp only [hmn, if_false] at hm ⊢
          simp only [List.filter_cons, hm]

theorem diff_empty (src dest : List Config) :
    ((diff src dest).notEquals = [] ∧ (diff src dest).notFound = [] ∧ (diff src dest).rest = []) ↔
      ∀ n, src.filter (fun c => c.name = n) = dest.filter (fun c => c.name = n) := by
  induction src generalizing dest with
  | nil =>
    simp only [diff, true_and, List.filter_nil]
    constructor
    · rintro rfl; simp
    · intro h
      cases dest with
      | nil => rfl
      | cons d r => have := h d.name; simp at this
  | cons s src ih =>
    rw [diff]
    cases ht : takeOut s.name dest with
    | none =>
      have h0 := takeOut_none.1 ht
      simp only [reduceCtorEq, false_and, and_false, false_iff]
      intro h
      have := h s.name
      rw [h0] at this
      simp at this
    | some p =>
      obtain ⟨x, dest'⟩ := p
      have ⟨hx, hf⟩ := takeOut_some ht
      simp only
      by_cases hv : s.value = x.value
      · rw [if_pos hv, ih]
        have hsx : s = x := by
          cases s; cases x; simp_all
        constructor
        · intro h n
          rw [hf n, ← h n]
          by_cases hn : n = s.name
          · simp [hn, hsx]
          · have : ¬ s.name = n := fun c => hn c.symm
            simp [hn, this]
        · intro h n
          have := h n
          rw [hf n] at this
          by_cases hn : n = s.name
          · subst hn
            simp only [List.filter_cons, decide_true, if_true, List.cons.injEq] at this
            exact this.2
          · have hn' : ¬ s.name = n := fun c => hn c.symm
            simpa [hn, hn'] using this
      · rw [if_neg hv]
        simp only [reduceCtorEq, false_and, false_iff]
        intro h
        have := h s.name
        rw [hf s.name] at this
        simp only [List.filter_cons, decide_true, if_true, List.cons.injEq] at this
        exact hv (this.1 ▸ rfl)

/-! ## What is read is what the file says -/

theorem values_nil (ls : List (List Char)) (name : List Char) (h : name.head? = some '#') :
    ((ls.flatMap setting).filter (fun e => e.1 = name)).map (·.2) = [] := by
  simp only [List.map_eq_nil_iff, List.filter_eq_nil_iff, List.mem_flatMap, decide_eq_true_eq]
  rintro e ⟨l, _, he⟩ rfl
  rw [setting] at he
  split at he
  · next hh =>
    simp only [List.mem_singleton] at he
    subst he
    cases l with
    | nil => simp at h
    | cons c r =>
      simp only [List.takeWhile_cons] at h
      split at h
      · simp only [List.head?_cons, Option.some.injEq] at h
        exact hh.1 (by simp [h])
      · simp at h
  · cases he

theorem read_values (ls : List (List Char)) (cs : List Config) (hp : parseLines ls = some cs) (hc : ∀ l ∈ ls, l.count '=' ≤ 1)
    (name : List Char) (hn : name.head? ≠ some '#') :
    (cs.filter (fun c => c.name = name)).map (·.value) = ((ls.flatMap setting).filter (fun e => e.1 = name)).map (·.2) := by
  induction ls generalizing cs with
  | nil =>
    cases hp
    rfl
  | cons l r ih =>
    rw [parseLines] at hp
    split at hp
    · next a b ha hb =>
      cases hp
      have hl : l.count '=' ≤ 1 := hc l (by simp)
      have := ih b hb (fun l hl => hc l (by simp [hl]))
      simp only [List.filter_append, List.map_append, List.flatMap_cons, this]
      congr 1
      by_cases h : '=' ∈ l
      · rw [parseLine_plain h hl] at ha
        cases ha
        by_cases hh : l.head? = some '#'
        · have h1 : setting l = [] := by simp [setting, hh]
          have h2 : ¬ l.takeWhile (· ≠ '=') = name := by
            rintro rfl
            apply hn
            cases l with
            | nil => simp at hh
            | cons c r =>
              simp only [List.head?_cons, Option.some.injEq] at hh
              subst hh
              simp
          rw [h1, List.filter_cons_of_neg (by simpa using h2)]
          rfl
        · have h1 : setting l = [(l.takeWhile (· ≠ '='), (l.dropWhile (· ≠ '=')).drop 1)] := by simp [setting, hh, h]
          rw [h1]
          by_cases h2 : l.takeWhile (· ≠ '=') = name
          · rw [List.filter_cons_of_pos (by simpa using h2), List.filter_cons_of_pos (by simpa using h2)]
            rfl
          · rw [List.filter_cons_of_neg (by simpa using h2), List.filter_cons_of_neg (by simpa using h2)]
            rfl
      · have h1 : setting l = [] := by simp [setting, h]
        rw [parseLine, if_neg h] at ha
        split at ha
        · cases ha; simp [h1]
        · cases ha
    · cases hp

end FcRetrieval.EnvFile
