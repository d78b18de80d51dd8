import Verif.Lemmas.RWPark
set_option linter.unusedSimpArgs false
/-!
# A lock held by a thread that rests is not taken for writing
-/

namespace FcRetrieval.RWLock

variable {L : Type} [DecidableEq L]

theorem held_stays {i : Nat} {t : Thread L} {l : L} (hm : t.holds l = true) :
    ∀ {sched : List Nat} {s s' : List (Thread L)}, i ∉ sched → s[i]? = some t → run s sched = some s' →
      s'[i]? = some t ∧ ∀ (j : Nat) (u : Thread L), s[j]? = some u →
        ∃ u' : Thread L, s'[j]? = some u' ∧ u'.todo.count (.lock l) = u.todo.count (.lock l) := by
  intro sched
  induction sched with
  | nil =>
    intro s s' _ hi h
    simp only [run, Option.some.injEq] at h
    subst h
    exact ⟨hi, fun j u hj => ⟨u, hj, rfl⟩⟩
  | cons k is ih =>
    intro s s' hn hi h
    simp only [run] at h
    obtain ⟨s1, h1, h2⟩ := Option.bind_eq_some_iff.1 h
    obtain ⟨v, v', hk, rfl, hc⟩ := step_some h1
    have hki : k ≠ i := fun e => hn (by simp [e])
    have hi1 : (s.set k v')[i]? = some t := by rw [List.getElem?_set_ne hki]; exact hi
    obtain ⟨h3, h4⟩ := ih (fun h => hn (by simp [h])) hi1 h2
    refine ⟨h3, fun j u hj => ?_⟩
    have hcount : v'.todo.count (.lock l) = v.todo.count (.lock l) := by
      rcases hc with ⟨r, e1, rfl⟩ | ⟨l', r, e1, _, rfl⟩ | ⟨l', r, e1, _, rfl⟩ | ⟨l', r, e1, e2, rfl⟩ | ⟨l', r, e1, _, _, rfl⟩ | ⟨l', r, e1, _, e3, rfl⟩
      · simp [e1, List.count_cons]
      · simp [e1, List.count_cons]
      · simp [e1, List.count_cons]
      · simp [e1, List.count_cons]
      · rfl
      · have hne : l' ≠ l := by
          rintro rfl
          rw [e3 t (List.mem_of_getElem? hi)] at hm
          cases hm
        simp [e1, List.count_cons, hne]
    by_cases hjk : k = j
    · subst hjk
      rw [hk] at hj
      injection hj with hj
      subst hj
      have hlt : k < s.length := by
        rcases Nat.lt_or_ge k s.length with h | h
        · exact h
        · rw [List.getElem?_eq_none h] at hk; cases hk
      obtain ⟨u', h5, h6⟩ := h4 k v' (by rw [List.getElem?_set_self hlt])
      exact ⟨u', h5, by rw [h6, hcount]⟩
    · obtain ⟨u', h5, h6⟩ := h4 j u (by rw [List.getElem?_set_ne hjk]; exact hj)
      exact ⟨u', h5, h6⟩

end FcRetrieval.RWLock
