import Verif.Lemmas.Pool
/-!
# C46: the connection pool under concurrent requests
-/
set_option linter.unusedSimpArgs false

namespace FcRetrieval.Pool

/-- A state some interleaving of some requests on an empty pool can reach. -/
def Reachable (s : Sys) : Prop := ∃ nodes l, s = run (init nodes) l

theorem Reachable.inv {s : Sys} (h : Reachable s) : Inv s := by
  obtain ⟨nodes, l, rfl⟩ := h
  exact run_inv nodes l

/-- Two requests for the same node which both dialled: the second one closes its connection and uses the first one's. -/
def exDouble : List (Nat × Bool) := [(0, true), (1, true), (0, true), (1, true), (1, true), (0, true)]

/-- C46: under every interleaving, there is at most one pooled connection per node, no connection is pooled for two nodes, and
pooled connections have not been closed. -/
theorem C46_pool_partial (s : Sys) (h : Reachable s) :
    (s.pool.map Prod.fst).Nodup ∧ (s.pool.map Prod.snd).Nodup ∧ ∀ n c, (n, c) ∈ s.pool → c ∉ s.closed ∧ c < s.next := by
  have hi := h.inv
  refine ⟨hi.keys, ?_, ?_⟩
  · rw [List.nodup_iff_count]
    exact fun c => pooled_le hi c
  · intro n c hc
    have h1 : 0 < pooled s c := by
      unfold pooled
      rw [List.count_pos_iff]
      exact List.mem_map.2 ⟨_, hc, rfl⟩
    have h2 := hi.one c
    split at h2
    · refine ⟨fun hm => ?_, by assumption⟩
      have := List.count_pos_iff.2 hm
      omega
    · omega

/-- C46: no connection is closed twice, and none is lost: each one that was opened is either pooled, or closed, or in the hands of
the one request that has just dialled it. -/
theorem C46_no_leak_partial (s : Sys) (h : Reachable s) :
    s.closed.Nodup ∧
    ∀ c, c < s.next →
      ((∃ n, (n, c) ∈ s.pool) ∧ c ∉ s.closed ∧ ∀ t ∈ s.threads, t.pc ≠ .dialled c) ∨
      ((∀ n, (n, c) ∉ s.pool) ∧ c ∈ s.closed ∧ ∀ t ∈ s.threads, t.pc ≠ .dialled c) ∨
      ((∀ n, (n, c) ∉ s.pool) ∧ c ∉ s.closed ∧ ∃ t ∈ s.threads, t.pc = .dialled c) := by
  have hi := h.inv
  refine ⟨?_, ?_⟩
  · rw [List.nodup_iff_count]
    intro c
    have h2 := hi.one c
    split at h2 <;> omega
  · intro c hc
    have h2 := hi.one c
    rw [if_pos hc] at h2
    have p1 : (∃ n, (n, c) ∈ s.pool) ↔ 0 < pooled s c := by
      unfold pooled
      rw [List.count_pos_iff, List.mem_map]
      constructor
      · rintro ⟨n, hn⟩
        exact ⟨_, hn, rfl⟩
      · rintro ⟨⟨n, c'⟩, hn, rfl⟩
        exact ⟨n, hn⟩
    have p2 : c ∈ s.closed ↔ 0 < s.closed.count c := List.count_pos_iff.symm
    have p3 : (∃ t ∈ s.threads, t.pc = .dialled c) ↔ 0 < dialling s c := by
      unfold dialling
      rw [List.countP_pos_iff]
      simp
    have q1 : (∀ n, (n, c) ∉ s.pool) ↔ ¬ 0 < pooled s c := by rw [← p1]; simp
    have q3 : (∀ t ∈ s.threads, t.pc ≠ .dialled c) ↔ ¬ 0 < dialling s c := by rw [← p3]; simp
    rw [p1, p2, p3, q1, q3]
    omega

/-- C46: when all requests have returned, every connection is pooled or closed, and not both. -/
theorem C46_surplus_closed_partial (s : Sys) (h : Reachable s) (hd : ∀ t ∈ s.threads, ∃ r, t.pc = .done r) (c : Nat) (hc : c < s.next) :
    (∃ n, (n, c) ∈ s.pool) ↔ c ∉ s.closed := by
  obtain ⟨_, h⟩ := C46_no_leak_partial s h
  rcases h c hc with h | h | h
  · exact ⟨fun _ => h.2.1, fun _ => h.1⟩
  · exact ⟨fun ⟨n, hn⟩ => absurd hn (h.1 n), fun hn => absurd h.2.1 hn⟩
  · obtain ⟨t, ht, he⟩ := h.2.2
    obtain ⟨r, hr⟩ := hd t ht
    rw [hr] at he
    cases he

/-- C46: at most one request at a time talks over a connection. -/
theorem C46_exclusive_partial (s : Sys) (h : Reachable s) (c i j : Nat) (n n' : Nat) (hi : s.threads[i]? = some ⟨n, .talking c⟩)
    (hj : s.threads[j]? = some ⟨n', .talking c⟩) : i = j := by
  have hm := h.inv.mutex c
  have key : ∀ (l : List Thread) (i j : Nat) (n n' : Nat), l[i]? = some ⟨n, .talking c⟩ → l[j]? = some ⟨n', .talking c⟩ →
      l.countP (fun t => t.pc == .talking c) ≤ 1 → i = j := by
    intro l
    induction l with
    | nil => intro i j n n' h; simp at h
    | cons a l ih =>
      intro i j n n' hi hj hl
      cases i with
      | zero =>
        cases j with
        | zero => rfl
        | succ j =>
          simp at hi hj
          subst hi
          have : 0 < l.countP (fun t => t.pc == .talking c) :=
            List.countP_pos_iff.2 ⟨_, List.mem_of_getElem? hj, by simp⟩
          simp only [List.countP_cons, beq_self_eq_true, ↓reduceIte] at hl
          omega
      | succ i =>
        cases j with
        | zero =>
          simp at hi hj
          subst hj
          have : 0 < l.countP (fun t => t.pc == .talking c) :=
            List.countP_pos_iff.2 ⟨_, List.mem_of_getElem? hi, by simp⟩
          simp only [List.countP_cons, beq_self_eq_true, ↓reduceIte] at hl
          omega
        | succ j =>
          simp at hi hj
          have := ih i j n n' hi hj (by rw [List.countP_cons] at hl; omega)
          omega
  exact key _ i j n n' hi hj hm

/-- C46: no step of another request closes a connection while a request is talking over it. -/
theorem C46_not_cut_partial (s : Sys) (h : Reachable s) (t : Thread) (ht : t ∈ s.threads) (c : Nat) (hc : t.pc = .talking c)
    (ho : c ∉ s.closed) (i : Nat) (ok : Bool) : c ∉ (step s i ok).closed := by
  have hi := h.inv
  have hl : locked s c = true := by
    unfold locked
    rw [List.any_eq_true]
    exact ⟨t, ht, by simp [hc]⟩
  unfold step
  cases hti : s.threads[i]? with
  | none => exact ho
  | some u =>
    obtain ⟨n, pc⟩ := u
    cases pc with
    | start =>
      simp only
      cases mget s.pool n <;> exact ho
    | dial =>
      simp only
      split <;> exact ho
    | dialled d =>
      simp only
      cases mget s.pool n with
      | none => exact ho
      | some c' =>
        simp only [List.mem_append, List.mem_singleton, not_or]
        refine ⟨ho, ?_⟩
        rintro rfl
        have h1 := hi.one c
        have h2 : 0 < dialling s c := List.countP_pos_iff.2 ⟨_, List.mem_of_getElem? hti, by simp⟩
        rcases hi.known t ht c (Or.inr hc) with h | h
        · exact ho h
        · split at h1 <;> omega
    | got d =>
      simp only
      split <;> exact ho
    | talking d =>
      simp only
      split <;> exact ho
    | failed =>
      simp only
      cases mget s.pool n with
      | none => exact ho
      | some d =>
        simp only
        split
        · exact ho
        · simp only [List.mem_append, List.mem_singleton, not_or]
          refine ⟨ho, ?_⟩
          rintro rfl
          contradiction
    | done r => exact ho

/-- C46: a request that starts when its node has a pooled connection, and is not disturbed, uses that connection, and succeeds if
the network lets it. -/
theorem C46_reuse_partial (s : Sys) (h : Reachable s) (i n c : Nat) (hp : (n, c) ∈ s.pool) (hl : locked s c = false)
    (ht : s.threads[i]? = some ⟨n, .start⟩) :
    run s [(i, true), (i, true), (i, true)] = { s with threads := s.threads.set i ⟨n, .done (some c)⟩ } := by
  have hi := h.inv
  have hm : mget s.pool n = some c := (mem_mget hi.keys).1 hp
  have hc := ((C46_pool_partial s h).2.2 n c hp).1
  have hlt : i < s.threads.length := (List.getElem?_eq_some_iff.1 ht).1
  have hlk : locked { s with threads := s.threads.set i ⟨n, .got c⟩ } c = false := by
    rw [← Bool.not_eq_true, locked_iff] at hl ⊢
    have h1 := countP_set_eq (fun t => t.pc == .talking c) s.threads i _ ⟨n, .got c⟩ ht
    have e0 : (Pc.start == .talking c) = false := rfl
    have e1 : (Pc.got c == .talking c) = false := rfl
    simp only [e0, e1, Bool.false_eq_true, ↓reduceIte, Nat.add_zero] at h1
    simp only [talkers] at hl ⊢
    omega
  simp only [run]
  have s1 : step s i true = { s with threads := s.threads.set i ⟨n, .got c⟩ } := by
    simp only [step, ht, hm]
  have s2 : step { s with threads := s.threads.set i ⟨n, .got c⟩ } i true =
      { s with threads := s.threads.set i ⟨n, .talking c⟩ } := by
    have : (s.threads.set i ⟨n, .got c⟩)[i]? = some ⟨n, .got c⟩ := by simp [hlt]
    simp only [step, this, hlk, Bool.false_eq_true, ↓reduceIte, List.set_set]
  have s3 : step { s with threads := s.threads.set i ⟨n, .talking c⟩ } i true =
      { s with threads := s.threads.set i ⟨n, .done (some c)⟩ } := by
    have : (s.threads.set i ⟨n, .talking c⟩)[i]? = some ⟨n, .talking c⟩ := by simp [hlt]
    simp only [step, this, hc, not_false_eq_true, and_self, ↓reduceIte, List.set_set]
  rw [s1, s2, s3]

/-- The interleaving `exDouble`: one pooled connection, the surplus one closed; a third request then uses the pooled one. -/
example : Reachable (run (init [7, 7, 7]) exDouble) ∧
    (run (init [7, 7, 7]) exDouble).pool = [(7, 1)] ∧ (run (init [7, 7, 7]) exDouble).closed = [0] ∧
    (run (init [7, 7, 7]) exDouble).threads = [⟨7, .got 1⟩, ⟨7, .got 1⟩, ⟨7, .start⟩] :=
  ⟨⟨_, _, rfl⟩, by decide +kernel, by decide +kernel, by decide +kernel⟩

/-- C46 fails for "every request gets a live connection": a request that has taken the pooled connection, while another request
whose exchange failed is about to remove it, will fail, whatever the network does. -/
theorem C46_refuted (s : Sys) (i j n c : Nat) (hij : i ≠ j) (hp : mget s.pool n = some c) (hl : locked s c = false)
    (hi : s.threads[i]? = some ⟨n, .failed⟩) (hj : s.threads[j]? = some ⟨n, .got c⟩) (ok1 ok2 ok3 : Bool) :
    (run s [(i, ok1), (j, ok2), (j, ok3)]).threads[j]? = some ⟨n, .failed⟩ := by
  have hjl : j < s.threads.length := (List.getElem?_eq_some_iff.1 hj).1
  have hlk : ∀ pl nx cl, locked { pool := pl, next := nx, closed := cl, threads := s.threads.set i ⟨n, .done none⟩ } c = false := by
    intro pl nx cl
    rw [← Bool.not_eq_true, locked_iff] at hl ⊢
    have h1 := countP_set_eq (fun t => t.pc == .talking c) s.threads i _ ⟨n, .done none⟩ hi
    have e0 : (Pc.failed == .talking c) = false := rfl
    have e1 : (Pc.done none == .talking c) = false := rfl
    simp only [e0, e1, Bool.false_eq_true, ↓reduceIte, Nat.add_zero] at h1
    simp only [talkers] at hl ⊢
    omega
  simp only [run]
  have s1 : step s i ok1 = { s with pool := mdel s.pool n, closed := s.closed ++ [c], threads := s.threads.set i ⟨n, .done none⟩ } := by
    simp only [step, hi, hp, hl, Bool.false_eq_true, ↓reduceIte]
  rw [s1]
  have hj1 : (s.threads.set i ⟨n, .done none⟩)[j]? = some ⟨n, .got c⟩ := by
    rw [List.getElem?_set_ne hij]; exact hj
  simp only [step, hj1, hlk, Bool.false_eq_true, ↓reduceIte]
  have hj2 : ((s.threads.set i ⟨n, .done none⟩).set j ⟨n, .talking c⟩)[j]? = some ⟨n, .talking c⟩ := by simp [hjl]
  simp only [hj2, List.mem_append, List.mem_singleton, or_true, not_true, and_false, ↓reduceIte]
  simp [hjl]

/-- Such a state is reached by two requests for one node: the first connects and its exchange fails. -/
def exRace : List (Nat × Bool) := [(0, true), (0, true), (0, true), (1, true), (0, true), (0, false)]

example : (run (init [7, 7]) exRace).pool = [(7, 0)] ∧ (run (init [7, 7]) exRace).closed = [] ∧
    (run (init [7, 7]) exRace).threads = [⟨7, .failed⟩, ⟨7, .got 0⟩] :=
  ⟨by decide +kernel, by decide +kernel, by decide +kernel⟩

/-- C46 fails also this way: a request whose exchange failed removes whatever connection is pooled for the node at that time, even a
different one that works. -/
theorem C46_removes_other_refuted (s : Sys) (i n c : Nat) (hp : mget s.pool n = some c) (hl : locked s c = false)
    (hi : s.threads[i]? = some ⟨n, .failed⟩) (ok : Bool) : c ∈ (step s i ok).closed ∧ mget (step s i ok).pool n = none := by
  simp only [step, hi, hp, hl, Bool.false_eq_true, ↓reduceIte]
  exact ⟨by simp, by rw [mget_mdel, if_pos rfl]⟩

/-- The first two requests fail over connection 0 and the first one removes it; the third opens connection 1 and gets its
response; the second one is about to close connection 1. -/
def exRemove : List (Nat × Bool) :=
  exRace ++ [(1, true), (1, false), (0, true), (2, true), (2, true), (2, true), (2, true), (2, true)]

example : (run (init [7, 7, 7]) exRemove).pool = [(7, 1)] ∧ (run (init [7, 7, 7]) exRemove).closed = [0] ∧
    (run (init [7, 7, 7]) exRemove).threads = [⟨7, .done none⟩, ⟨7, .failed⟩, ⟨7, .done (some 1)⟩] :=
  ⟨by decide +kernel, by decide +kernel, by decide +kernel⟩

end FcRetrieval.Pool
