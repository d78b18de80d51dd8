import Verif.Model.Pool
import Verif.Lemmas.Maps
/-!
# Invariants of the connection pool
-/
set_option linter.unusedSimpArgs false

namespace FcRetrieval.Pool

/-- Requests that have dialled this connection and not yet settled it. -/
def dialling (s : Sys) (c : Nat) : Nat := s.threads.countP (fun t => t.pc == .dialled c)
/-- Requests talking over this connection. -/
def talkers (s : Sys) (c : Nat) : Nat := s.threads.countP (fun t => t.pc == .talking c)
/-- How often the connection is in the pool. -/
def pooled (s : Sys) (c : Nat) : Nat := (s.pool.map Prod.snd).count c

structure Inv (s : Sys) : Prop where
  keys : (mkeys s.pool).Nodup
  one : ∀ c, s.closed.count c + pooled s c + dialling s c = if c < s.next then 1 else 0
  mutex : ∀ c, talkers s c ≤ 1
  known : ∀ t ∈ s.threads, ∀ c, t.pc = .got c ∨ t.pc = .talking c → c ∈ s.closed ∨ pooled s c = 1

theorem countP_set_eq (p : Thread → Bool) : ∀ (l : List Thread) (i : Nat) (t t' : Thread), l[i]? = some t →
    (l.set i t').countP p + (if p t then 1 else 0) = l.countP p + (if p t' then 1 else 0)
  | [], i, t, t', h => by simp at h
  | a :: l, 0, t, t', h => by
    simp at h
    subst h
    simp only [List.set_cons_zero, List.countP_cons]
    omega
  | a :: l, i + 1, t, t', h => by
    have ih := countP_set_eq p l i t t' (by simpa using h)
    simp only [List.set_cons_succ, List.countP_cons]
    omega

theorem count_mset_new (m : List (Nat × Nat)) (k v c : Nat) (h : mget m k = none) :
    ((mset m k v).map Prod.snd).count c = (m.map Prod.snd).count c + if v = c then 1 else 0 := by
  induction m with
  | nil => simp only [mset, List.map_cons, List.map_nil, List.count_cons, List.count_nil, beq_iff_eq]
  | cons e m ih =>
    obtain ⟨k', v'⟩ := e
    by_cases hk : k' = k
    · simp [mget, hk] at h
    · simp only [mget, hk, ↓reduceIte] at h
      simp only [mset, hk, ↓reduceIte, List.map_cons, List.count_cons, ih h]
      omega

theorem mdel_of_not_mem (m : List (Nat × Nat)) (k : Nat) (h : k ∉ mkeys m) : mdel m k = m := by
  unfold mdel
  rw [List.filter_eq_self]
  intro e he
  have : e.1 ≠ k := fun hk => h (hk ▸ List.mem_map.2 ⟨e, he, rfl⟩)
  simp [this]

theorem count_mdel (m : List (Nat × Nat)) (hn : (mkeys m).Nodup) (k v c : Nat) (h : mget m k = some v) :
    ((mdel m k).map Prod.snd).count c + (if v = c then 1 else 0) = (m.map Prod.snd).count c := by
  induction m with
  | nil => simp [mget] at h
  | cons e m ih =>
    obtain ⟨k', v'⟩ := e
    simp only [mkeys, List.map_cons, List.nodup_cons] at hn
    by_cases hk : k' = k
    · simp only [mget, hk, ↓reduceIte, Option.some.injEq] at h
      subst h
      have : mdel ((k', v') :: m) k = m := by
        have hm := mdel_of_not_mem m k (by rw [← hk]; exact hn.1)
        unfold mdel at hm ⊢
        rw [List.filter_cons_of_neg (by simp [hk])]
        exact hm
      rw [this]
      simp only [List.map_cons, List.count_cons, beq_iff_eq]
    · simp only [mget, hk, ↓reduceIte] at h
      have ih := ih hn.2 h
      have : mdel ((k', v') :: m) k = (k', v') :: mdel m k := by
        unfold mdel
        rw [List.filter_cons_of_pos (by simp [hk])]
      rw [this]
      simp only [List.map_cons, List.count_cons, ← ih]
      omega

theorem pooled_of_mget {s : Sys} {n c : Nat} (h : mget s.pool n = some c) : 0 < pooled s c := by
  unfold pooled
  rw [List.count_pos_iff]
  exact List.mem_map.2 ⟨_, mget_some_mem h, rfl⟩

theorem locked_iff (s : Sys) (c : Nat) : locked s c = true ↔ 0 < talkers s c := by
  unfold locked talkers
  rw [List.any_eq_true, List.countP_pos_iff]

theorem pooled_le {s : Sys} (hs : Inv s) (c : Nat) : pooled s c ≤ 1 := by
  have := hs.one c
  split at this <;> omega

/-- Every step keeps the invariant. -/
theorem step_inv (s : Sys) (hs : Inv s) (i : Nat) (ok : Bool) : Inv (step s i ok) := by
  unfold step
  cases ht : s.threads[i]? with
  | none => exact hs
  | some t =>
    obtain ⟨n, pc⟩ := t
    have hmem : (⟨n, pc⟩ : Thread) ∈ s.threads := List.mem_of_getElem? ht
    have hset : ∀ (p : Thread → Bool) (pc' : Pc), (s.threads.set i ⟨n, pc'⟩).countP p + (if p ⟨n, pc⟩ then 1 else 0) =
        s.threads.countP p + (if p ⟨n, pc'⟩ then 1 else 0) := fun p pc' => countP_set_eq p _ _ _ _ ht
    have hin : ∀ (pc' : Pc) (t : Thread), t ∈ s.threads.set i ⟨n, pc'⟩ → t ∈ s.threads ∨ t = ⟨n, pc'⟩ :=
      fun pc' t h => List.mem_or_eq_of_mem_set h
    -- a step that changes only where the thread is
    have hmove : ∀ (pc' : Pc), (∀ c, pc ≠ .dialled c) → (∀ c, pc' ≠ .dialled c) →
        (∀ c, pc' = .talking c → talkers s c = 0) →
        (∀ c, pc' = .got c ∨ pc' = .talking c → c ∈ s.closed ∨ pooled s c = 1) →
        Inv { s with threads := s.threads.set i ⟨n, pc'⟩ } := by
      intro pc' h1 h2 h3 h4
      refine ⟨hs.keys, fun c => ?_, fun c => ?_, fun t ht c hc => ?_⟩
      · have h := hset (fun t => t.pc == .dialled c) pc'
        have e1 : (pc == .dialled c) = false := by simpa using h1 c
        have e2 : (pc' == .dialled c) = false := by simpa using h2 c
        simp only [e1, e2] at h
        have := hs.one c
        simp only [dialling, pooled] at this ⊢
        simp only [Bool.false_eq_true, ↓reduceIte, Nat.add_zero] at h
        rw [h]
        exact this
      · have h := hset (fun t => t.pc == .talking c) pc'
        have hm := hs.mutex c
        simp only [talkers] at hm ⊢
        by_cases e : pc' = .talking c
        · have := h3 c e
          simp only [talkers] at this
          simp only [e, beq_self_eq_true, ↓reduceIte] at h ⊢
          omega
        · have e2 : (pc' == .talking c) = false := by simpa using e
          simp only [e2, Bool.false_eq_true, ↓reduceIte] at h
          omega
      · rcases hin pc' t ht with h | h
        · exact hs.known t h c hc
        · subst h
          exact h4 c hc
    cases pc with
    | start =>
      simp only
      cases hp : mget s.pool n with
      | some c =>
        apply hmove <;> simp
        have h1 := pooled_of_mget hp
        have h2 := pooled_le hs c
        exact Or.inr (by omega)
      | none => apply hmove <;> simp
    | dial =>
      simp only
      cases ok with
      | false => simp only [Bool.false_eq_true, ↓reduceIte]; apply hmove <;> simp
      | true =>
        simp only [↓reduceIte]
        refine ⟨hs.keys, fun c => ?_, fun c => ?_, fun t ht c hc => ?_⟩
        · have h := hset (fun t => t.pc == .dialled c) (.dialled s.next)
          have := hs.one c
          have e0 : (Pc.dial == .dialled c) = false := rfl
          simp only [dialling, pooled] at this ⊢
          simp only [e0, Bool.false_eq_true, ↓reduceIte, Nat.add_zero] at h
          rw [h]
          by_cases hc : s.next = c
          · subst hc
            simp only [Nat.lt_irrefl, ↓reduceIte, beq_self_eq_true] at this ⊢
            rw [if_pos (by omega)]
            omega
          · have e : (Pc.dialled s.next == .dialled c) = false := by simpa using hc
            simp only [e, Bool.false_eq_true, ↓reduceIte, Nat.add_zero, this]
            by_cases h1 : c < s.next
            · rw [if_pos h1, if_pos (by omega)]
            · rw [if_neg h1, if_neg (by omega)]
        · have h := hset (fun t => t.pc == .talking c) (.dialled s.next)
          have hm := hs.mutex c
          have e0 : (Pc.dial == .talking c) = false := rfl
          have e1 : (Pc.dialled s.next == .talking c) = false := rfl
          simp only [e0, e1, Bool.false_eq_true, ↓reduceIte, Nat.add_zero] at h
          simp only [talkers] at hm ⊢
          omega
        · rcases hin _ t ht with h | h
          · exact hs.known t h c hc
          · subst h
            simp at hc
    | dialled d =>
      simp only
      cases hp : mget s.pool n with
      | none =>
        simp only
        have hpc : ∀ c, ((mset s.pool n d).map Prod.snd).count c = (s.pool.map Prod.snd).count c + if d = c then 1 else 0 :=
          fun c => count_mset_new s.pool n d c hp
        have hone : ∀ c, s.closed.count c + ((mset s.pool n d).map Prod.snd).count c +
            (s.threads.set i ⟨n, .got d⟩).countP (fun t => t.pc == .dialled c) = if c < s.next then 1 else 0 := by
          intro c
          have h := hset (fun t => t.pc == .dialled c) (.got d)
          have := hs.one c
          have e0 : (Pc.got d == .dialled c) = false := rfl
          simp only [dialling, pooled] at this
          simp only [e0, Bool.false_eq_true, ↓reduceIte, Nat.add_zero, beq_iff_eq, Pc.dialled.injEq] at h
          rw [hpc]
          omega
        refine ⟨mset_nodup hs.keys _ _, hone, fun c => ?_, fun t ht c hc => ?_⟩
        · have h := hset (fun t => t.pc == .talking c) (.got d)
          have hm := hs.mutex c
          have e0 : (Pc.dialled d == .talking c) = false := rfl
          have e1 : (Pc.got d == .talking c) = false := rfl
          simp only [e0, e1, Bool.false_eq_true, ↓reduceIte, Nat.add_zero] at h
          simp only [talkers] at hm ⊢
          omega
        · simp only [pooled]
          rcases hin _ t ht with h | h
          · rcases hs.known t h c hc with h | h
            · exact Or.inl h
            · right
              simp only [pooled] at h
              have h1 := hone c
              rw [hpc] at h1 ⊢
              split at h1 <;> split at h1 <;> split <;> omega
          · subst h
            simp at hc
            subst hc
            right
            have h1 := hone d
            rw [hpc] at h1 ⊢
            simp only [↓reduceIte] at h1 ⊢
            split at h1 <;> omega
      | some c' =>
        simp only
        have hone : ∀ c, (s.closed ++ [d]).count c + (s.pool.map Prod.snd).count c +
            (s.threads.set i ⟨n, .got c'⟩).countP (fun t => t.pc == .dialled c) = if c < s.next then 1 else 0 := by
          intro c
          have h := hset (fun t => t.pc == .dialled c) (.got c')
          have := hs.one c
          have e0 : (Pc.got c' == .dialled c) = false := rfl
          simp only [dialling, pooled] at this
          simp only [e0, Bool.false_eq_true, ↓reduceIte, Nat.add_zero, beq_iff_eq, Pc.dialled.injEq] at h
          simp only [List.count_append, List.count_cons, List.count_nil, beq_iff_eq, Nat.zero_add]
          omega
        refine ⟨hs.keys, hone, fun c => ?_, fun t ht c hc => ?_⟩
        · have h := hset (fun t => t.pc == .talking c) (.got c')
          have hm := hs.mutex c
          have e0 : (Pc.dialled d == .talking c) = false := rfl
          have e1 : (Pc.got c' == .talking c) = false := rfl
          simp only [e0, e1, Bool.false_eq_true, ↓reduceIte, Nat.add_zero] at h
          simp only [talkers] at hm ⊢
          omega
        · rcases hin _ t ht with h | h
          · rcases hs.known t h c hc with h | h
            · exact Or.inl (by simp [h])
            · exact Or.inr h
          · subst h
            simp at hc
            subst hc
            have h1 := pooled_of_mget hp
            have h2 := pooled_le hs c'
            exact Or.inr (show pooled s c' = 1 by omega)
    | got c =>
      simp only
      by_cases hl : locked s c = true
      · rw [if_pos hl]; exact hs
      · rw [if_neg hl]
        have h0 : talkers s c = 0 := by
          have := mt (locked_iff s c).2 hl
          omega
        apply hmove
        · simp
        · simp
        · intro c' h
          cases h
          exact h0
        · intro c' h
          have : c = c' := by simpa using h.symm
          subst this
          exact hs.known _ hmem _ (Or.inl rfl)
    | talking c =>
      simp only
      split
      · apply hmove <;> simp
      · apply hmove <;> simp
    | failed =>
      simp only
      cases hp : mget s.pool n with
      | none => apply hmove <;> simp
      | some d =>
        simp only
        by_cases hl : locked s d = true
        · rw [if_pos hl]; exact hs
        · rw [if_neg hl]
          have hdel := fun c => count_mdel s.pool hs.keys n d c hp
          refine ⟨mdel_nodup hs.keys _, fun c => ?_, fun c => ?_, fun t ht c hc => ?_⟩
          · have h := hset (fun t => t.pc == .dialled c) (.done none)
            have := hs.one c
            have hd := hdel c
            have e0 : (Pc.failed == .dialled c) = false := rfl
            have e1 : (Pc.done none == .dialled c) = false := rfl
            simp only [dialling, pooled] at this ⊢
            simp only [e0, e1, Bool.false_eq_true, ↓reduceIte, Nat.add_zero] at h
            simp only [List.count_append, List.count_cons, List.count_nil, beq_iff_eq, Nat.zero_add]
            omega
          · have h := hset (fun t => t.pc == .talking c) (.done none)
            have hm := hs.mutex c
            have e0 : (Pc.failed == .talking c) = false := rfl
            have e1 : (Pc.done none == .talking c) = false := rfl
            simp only [e0, e1, Bool.false_eq_true, ↓reduceIte, Nat.add_zero] at h
            simp only [talkers] at hm ⊢
            omega
          · rcases hin _ t ht with h | h
            · rcases hs.known t h c hc with h | h
              · exact Or.inl (by simp [h])
              · by_cases e : d = c
                · exact Or.inl (by simp [e])
                · right
                  have hd := hdel c
                  simp only [e, ↓reduceIte, Nat.add_zero] at hd
                  simp only [pooled] at h ⊢
                  rw [hd]
                  exact h
            · subst h
              simp at hc
    | done r => exact hs

theorem init_inv (nodes : List Nat) : Inv (init nodes) := by
  have h0 : ∀ pc : Pc, pc ≠ .start → ((init nodes).threads).countP (fun t => t.pc == pc) = 0 := by
    intro pc hpc
    rw [List.countP_eq_zero]
    intro t ht
    simp [init] at ht
    obtain ⟨n, _, rfl⟩ := ht
    simpa using fun h => hpc h.symm
  refine ⟨by simp [init, mkeys], fun c => ?_, fun c => ?_, fun t ht c hc => ?_⟩
  · have := h0 (.dialled c) (by simp)
    simp only [dialling, pooled, this]
    simp [init]
  · have := h0 (.talking c) (by simp)
    simp only [talkers, this]
    omega
  · simp [init] at ht
    obtain ⟨n, _, rfl⟩ := ht
    simp at hc

theorem run_inv (nodes : List Nat) (l : List (Nat × Bool)) : Inv (run (init nodes) l) := by
  have : ∀ (l : List (Nat × Bool)) (s : Sys), Inv s → Inv (run s l) := by
    intro l
    induction l with
    | nil => exact fun s h => h
    | cons a l ih => exact fun s h => ih _ (step_inv s h a.1 a.2)
  exact this l _ (init_inv nodes)

end FcRetrieval.Pool
