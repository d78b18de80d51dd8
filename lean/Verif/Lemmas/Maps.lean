import Verif.Model.Maps
/-! Lemmas about maps. -/
set_option linter.unusedSimpArgs false
namespace FcRetrieval
variable {κ ν : Type} [DecidableEq κ]

theorem mget_mset (m : List (κ × ν)) (k : κ) (v : ν) (k' : κ) :
    mget (mset m k v) k' = if k = k' then some v else mget m k' := by
  induction m with
  | nil => simp [mset, mget]
  | cons e m ih =>
    obtain ⟨a, b⟩ := e
    simp only [mset]
    by_cases h : a = k
    · subst h
      simp only [if_true, mget]
      by_cases h2 : a = k' <;> simp [h2]
    · rw [if_neg h]
      simp only [mget, ih]
      by_cases h2 : a = k'
      · subst h2
        have : ¬ k = a := fun e => h e.symm
        simp [this]
      · simp [h2]

theorem mget_mset_same (m : List (κ × ν)) (k : κ) (v : ν) : mget (mset m k v) k = some v := by
  simp [mget_mset]
theorem mget_mset_other (m : List (κ × ν)) {k k' : κ} (v : ν) (h : k ≠ k') : mget (mset m k v) k' = mget m k' := by
  simp [mget_mset, h]

theorem mget_mdel (m : List (κ × ν)) (k k' : κ) : mget (mdel m k) k' = if k = k' then none else mget m k' := by
  induction m with
  | nil => simp [mdel, mget]
  | cons e m ih =>
    obtain ⟨a, b⟩ := e
    simp only [mdel] at ih ⊢
    rw [List.filter_cons]
    by_cases h : a = k
    · subst h
      simp only [ne_eq, not_true_eq_false, decide_false, Bool.false_eq_true, if_false, ih, mget]
      by_cases h2 : a = k' <;> simp [h2]
    · simp only [ne_eq, h, not_false_eq_true, decide_true, if_true, mget, ih]
      by_cases h2 : a = k'
      · subst h2
        have : ¬ k = a := fun e => h e.symm
        simp [this]
      · simp [h2]

theorem mget_some_mem {m : List (κ × ν)} {k : κ} {v : ν} (h : mget m k = some v) : (k, v) ∈ m := by
  induction m with
  | nil => simp [mget] at h
  | cons e m ih =>
    obtain ⟨a, b⟩ := e
    simp only [mget] at h
    split at h
    · rename_i ha; cases h; subst ha; simp
    · exact List.mem_cons_of_mem _ (ih h)

theorem mget_isSome_iff (m : List (κ × ν)) (k : κ) : (mget m k).isSome ↔ k ∈ mkeys m := by
  induction m with
  | nil => simp [mget, mkeys]
  | cons e m ih =>
    obtain ⟨a, b⟩ := e
    simp only [mkeys, mget, List.map_cons, List.mem_cons] at ih ⊢
    by_cases h : a = k
    · simp [h]
    · have : ¬ k = a := fun e => h e.symm
      simp [h, this, ih]

theorem mget_none_iff (m : List (κ × ν)) (k : κ) : mget m k = none ↔ k ∉ mkeys m := by
  rw [← mget_isSome_iff]
  cases mget m k <;> simp

theorem mem_mget {m : List (κ × ν)} (hn : (mkeys m).Nodup) {k : κ} {v : ν} : (k, v) ∈ m ↔ mget m k = some v := by
  refine ⟨?_, mget_some_mem⟩
  induction m with
  | nil => simp
  | cons e m ih =>
    obtain ⟨a, b⟩ := e
    simp only [mkeys, List.map_cons, List.nodup_cons] at hn
    intro h
    simp only [mget]
    rcases List.mem_cons.1 h with h | h
    · cases h; simp
    · have : a ≠ k := by
        rintro rfl
        exact hn.1 (List.mem_map.2 ⟨(a, v), h, rfl⟩)
      rw [if_neg this]
      exact ih hn.2 h

theorem mkeys_mset_of_mem (m : List (κ × ν)) (k : κ) (v : ν) (h : k ∈ mkeys m) : mkeys (mset m k v) = mkeys m := by
  induction m with
  | nil => simp [mkeys] at h
  | cons e m ih =>
    obtain ⟨a, b⟩ := e
    simp only [mset]
    by_cases ha : a = k
    · subst ha; simp [mkeys]
    · rw [if_neg ha]
      have : k ∈ mkeys m := by
        simp only [mkeys, List.map_cons, List.mem_cons] at h
        rcases h with h | h
        · exact absurd h.symm ha
        · exact h
      simp only [mkeys, List.map_cons] at ih ⊢
      rw [ih this]

theorem mkeys_mset_of_not_mem (m : List (κ × ν)) (k : κ) (v : ν) (h : k ∉ mkeys m) : mkeys (mset m k v) = mkeys m ++ [k] := by
  induction m with
  | nil => rfl
  | cons e m ih =>
    obtain ⟨a, b⟩ := e
    simp only [mkeys, List.map_cons, List.mem_cons, not_or] at h
    simp only [mset]
    rw [if_neg (fun e => h.1 e.symm)]
    simp only [mkeys, List.map_cons, List.cons_append] at ih ⊢
    rw [ih h.2]

theorem mset_nodup {m : List (κ × ν)} (hn : (mkeys m).Nodup) (k : κ) (v : ν) : (mkeys (mset m k v)).Nodup := by
  by_cases h : k ∈ mkeys m
  · rw [mkeys_mset_of_mem m k v h]; exact hn
  · rw [mkeys_mset_of_not_mem m k v h]
    rw [List.nodup_append]
    refine ⟨hn, by simp, ?_⟩
    intro a ha b hb
    simp at hb
    subst hb
    rintro rfl
    exact h ha

theorem mem_mkeys_mset (m : List (κ × ν)) (k : κ) (v : ν) (a : κ) : a ∈ mkeys (mset m k v) ↔ a = k ∨ a ∈ mkeys m := by
  by_cases h : k ∈ mkeys m
  · rw [mkeys_mset_of_mem m k v h]
    constructor
    · exact Or.inr
    · rintro (rfl | h')
      · exact h
      · exact h'
  · rw [mkeys_mset_of_not_mem m k v h]
    simp [or_comm]

theorem mdel_nodup {m : List (κ × ν)} (hn : (mkeys m).Nodup) (k : κ) : (mkeys (mdel m k)).Nodup := by
  unfold mkeys mdel
  exact List.Nodup.sublist (List.Sublist.map _ List.filter_sublist) hn

end FcRetrieval
