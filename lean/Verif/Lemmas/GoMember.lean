import Verif.Spec.Members
/-!
# Members and fields of a struct, up to case
-/
set_option linter.unusedSimpArgs false

namespace FcRetrieval

theorem sameName_self (a : String) : sameName a a = true := by simp [sameName]

theorem memberFor_last (name : String) : ∀ (fs : List (String × Json)), memberFor name fs = (fs.filter (fun e => decide (foldName e.1 = foldName name))).getLast?.map Prod.snd
  | [] => rfl
  | (k, v) :: fs => by
    have ih := memberFor_last name fs
    simp only [memberFor, ih]
    by_cases h : foldName k = foldName name
    · have : sameName name k = true := by simp [sameName, h]
      rw [List.filter_cons_of_pos (by simpa using h), if_pos this]
      cases hl : (fs.filter (fun e => decide (foldName e.1 = foldName name))) with
      | nil => rfl
      | cons a l =>
        rw [List.getLast?_cons_cons]
        cases hg : (a :: l).getLast? with
        | none => simp at hg
        | some w => rfl
    · have : sameName name k = false := by
        simp only [sameName, beq_eq_false_iff_ne, ne_eq]
        exact fun e => h e.symm
      rw [List.filter_cons_of_neg (by simpa using h), this]
      cases (fs.filter (fun e => decide (foldName e.1 = foldName name))).getLast? <;> rfl

theorem memberFor_carries {fs : List (String × Json)} {name : String} {j : Json} (h : HasMember fs (name, j)) : memberFor name fs = some j := by
  obtain ⟨k, h⟩ := h
  rw [memberFor_last, h]
  rfl

theorem carries_mem {name : String} : ∀ {fs : List (String × Json)} {j : Json}, (name, j) ∈ fs → Distinct (fs.map Prod.fst) → HasMember fs (name, j)
  | [], _, h, _ => by simp at h
  | (k, v) :: fs, j, h, hn => by
    simp only [Distinct, List.map_cons, List.nodup_cons, List.mem_map, not_exists, not_and] at hn
    simp only [List.mem_cons, Prod.mk.injEq] at h
    rcases h with ⟨rfl, rfl⟩ | h
    · refine ⟨name, ?_⟩
      rw [List.filter_cons_of_pos (by simp)]
      have : fs.filter (fun e => decide (foldName e.1 = foldName name)) = [] := by
        rw [List.filter_eq_nil_iff]
        intro e he hd
        exact hn.1 e.1 ⟨e, he, rfl⟩ (by simpa using hd)
      simp only [this]
    · obtain ⟨k', h'⟩ := carries_mem h hn.2
      refine ⟨k', ?_⟩
      rw [List.filter_cons_of_neg, h']
      simp only [decide_eq_true_eq]
      intro e
      exact hn.1 name ⟨(name, j), h, rfl⟩ e.symm

/-- A member which alone has its name is the one that counts. -/
theorem memberFor_eq {name : String} {fs : List (String × Json)} {j : Json} (h : (name, j) ∈ fs) (hn : Distinct (fs.map Prod.fst)) : memberFor name fs = some j :=
  memberFor_carries (carries_mem h hn)

/-- Where no other key is like the name, the member is the one of exactly that name. -/
theorem memberFor_field {name : String} : ∀ {fs : List (String × Json)}, (∀ k ∈ fs.map Prod.fst, k ≠ name → sameName name k = false) → memberFor name fs = field name fs
  | [], _ => rfl
  | (k, v) :: fs, h => by
    simp only [List.map_cons, List.mem_cons, forall_eq_or_imp] at h
    simp only [memberFor, field, memberFor_field h.2]
    cases field name fs with
    | some w => rfl
    | none =>
      by_cases hk : k = name
      · subst hk; simp [sameName_self]
      · simp [hk, h.1 hk]

end FcRetrieval
