import Verif.Lemmas.RingShared
/-!
Any number of insertions into different gaps of a ring.
-/
set_option linter.unusedSimpArgs false
namespace FcRetrieval.RingShared
open FcRetrieval.Ring

/-- The place found for `x` is still good: its node is fresh, and no node of the ring lies between its neighbours. -/
structure Gap (r : Ring) (as : List Nat) (p : Place) (x : Hex) : Prop where
  far : p.far = p.current
  front : p.front = false
  fresh : p.node ∉ as
  alloc : p.node < r.cap
  key : (r.heap p.node).key = keyOf x
  val : (r.heap p.node).val = x
  prv : p.prv ∈ as
  cur : p.current ∈ as
  lo : (r.heap p.prv).key < keyOf x
  hi : keyOf x < (r.heap p.current).key
  none : ∀ a ∈ as, (r.heap a).key ≤ (r.heap p.prv).key ∨ (r.heap p.current).key ≤ (r.heap a).key

theorem key_inj {r : Ring} {as : List Nat} {l : List Hex} (hr : IsRingAt r as l) {a b : Nat} (ha : a ∈ as) (hb : b ∈ as)
    (h : (r.heap a).key = (r.heap b).key) : a = b := by
  have hs := hr.sorted_nodes
  obtain ⟨i, hi, rfl⟩ := List.getElem_of_mem ha
  obtain ⟨j, hj, rfl⟩ := List.getElem_of_mem hb
  rcases Nat.lt_trichotomy i j with hij | hij | hij
  · have := List.pairwise_iff_getElem.mp hs i j hi hj hij; omega
  · subst hij; rfl
  · have := List.pairwise_iff_getElem.mp hs j i hj hi hij; omega

/-- The nodes below and above the gap. -/
theorem gap_split {r : Ring} {as : List Nat} {l : List Hex} {p : Place} {x : Hex} (hr : IsRingAt r as l) (hg : Gap r as p x) :
    ∃ los his, as = los ++ his ∧ los.getLast? = some p.prv ∧ his.head? = some p.current ∧ (∀ a ∈ los, (r.heap a).key < keyOf x) ∧
      (∀ a ∈ his, keyOf x < (r.heap a).key) := by
  obtain ⟨los, his, rfl, h1, h2⟩ := split_sorted as (fun a => (r.heap a).key) (keyOf x) hr.sorted_nodes
  have h3 : ∀ a ∈ his, keyOf x < (r.heap a).key := by
    intro a ha
    have g1 := h2 a ha
    have g2 := hg.none a (List.mem_append_right _ ha)
    have g3 := hg.lo
    have g4 := hg.hi
    omega
  have hpl : p.prv ∈ los := by
    rcases List.mem_append.mp hg.prv with h | h
    · exact h
    · have := h3 _ h; have := hg.lo; omega
  have hch : p.current ∈ his := by
    rcases List.mem_append.mp hg.cur with h | h
    · have := h1 _ h; have := hg.hi; omega
    · exact h
  obtain ⟨hs1, hs2, _⟩ := List.pairwise_append.mp hr.sorted_nodes
  refine ⟨los, his, rfl, ?_, ?_, h1, h3⟩
  · obtain ⟨ls, q, rfl⟩ : ∃ ls q, los = ls ++ [q] := by
      rcases List.eq_nil_or_concat los with h | ⟨ls, q, h⟩
      · rw [h] at hpl; simp at hpl
      · exact ⟨ls, q, by simpa using h⟩
    rw [List.getLast?_append]
    simp only [List.getLast?_singleton, Option.some_or, Option.some.injEq]
    have hq := hg.none q (by simp)
    have hqk := h1 q (by simp)
    have := hg.hi
    rcases List.mem_append.mp hpl with h | h
    · have := (List.pairwise_append.mp hs1).2.2 _ h q (by simp)
      omega
    · exact (List.mem_singleton.mp h).symm
  · cases his with
    | nil => simp at hch
    | cons q hs =>
      simp only [List.head?_cons, Option.some.injEq]
      have hq := hg.none q (by simp)
      have hqk := h3 q (by simp)
      have := hg.lo
      rcases List.mem_cons.mp hch with h | h
      · exact h.symm
      · have := (List.pairwise_cons.mp hs2).1 _ h
        omega

/-- A search for a value that is not in the ring, with smaller and larger ones in it. -/
theorem look_gap {r : Ring} {as : List Nat} {l : List Hex} {x : Hex} (hr : IsRingAt r as l) (hx : validateInput x = true)
    (hlo : ∃ a ∈ as, (r.heap a).key < keyOf x) (hhi : ∃ a ∈ as, keyOf x < (r.heap a).key) (hne : ∀ a ∈ as, (r.heap a).key ≠ keyOf x) :
    ∃ p, insertLook r x = .ok (allocNode r x, some p) ∧ p.node = r.cap ∧ Gap (allocNode r x) as p x ∧ IsRingAt (allocNode r x) as l := by
  obtain ⟨los, his, rfl, h1, h2⟩ := split_sorted as (fun a => (r.heap a).key) (keyOf x) hr.sorted_nodes
  have h3 : ∀ a ∈ his, keyOf x < (r.heap a).key := by
    intro a ha
    have g1 := h2 a ha
    have g2 := hne a (List.mem_append_right _ ha)
    omega
  obtain ⟨hs1, hs2, _⟩ := List.pairwise_append.mp hr.sorted_nodes
  obtain ⟨ls, q, rfl⟩ : ∃ ls q, los = ls ++ [q] := by
    rcases List.eq_nil_or_concat los with h | ⟨ls, q, h⟩
    · obtain ⟨a, ha, hk⟩ := hlo
      rw [h] at ha
      have := h3 a (by simpa using ha)
      omega
    · exact ⟨ls, q, by simpa using h⟩
  cases his with
  | nil =>
    obtain ⟨a, ha, hk⟩ := hhi
    have := h1 a (by simpa using ha)
    omega
  | cons c hs =>
    have e := look_mid (p := q) (c := c) hr hx (by simp) rfl h1 h3
    have hr1 : IsRingAt (allocNode r x) (ls ++ [q] ++ c :: hs) l := hr.alloc_upd fun _ => ⟨none, none, keyOf x, x, none, none⟩
    have hold : ∀ a ∈ ls ++ [q] ++ c :: hs, (allocNode r x).heap a = r.heap a := by
      intro a ha
      simp [allocNode, Heap.upd, Nat.ne_of_lt (hr.alloc a ha)]
    refine ⟨_, e, rfl, ⟨rfl, rfl, ?_, ?_, ?_, ?_, ?_, ?_, ?_, ?_, ?_⟩, hr1⟩
    · intro h
      exact Nat.lt_irrefl _ (hr.alloc _ h)
    · simp [allocNode]
    · simp [allocNode, Heap.upd]
    · simp [allocNode, Heap.upd]
    · simp
    · simp
    · rw [hold q (by simp)]; exact h1 q (by simp)
    · rw [hold c (by simp)]; exact h3 c (by simp)
    · intro a ha
      rw [hold a ha]
      simp only
      rw [hold q (by simp), hold c (by simp)]
      rcases List.mem_append.mp ha with h | h
      · left
        rcases List.mem_append.mp h with h | h
        · exact Nat.le_of_lt ((List.pairwise_append.mp hs1).2.2 _ h q (by simp))
        · rw [List.mem_singleton.mp h]; exact Nat.le_refl _
      · right
        rcases List.mem_cons.mp h with h | h
        · rw [h]; exact Nat.le_refl _
        · exact Nat.le_of_lt ((List.pairwise_cons.mp hs2).1 _ h)

/-- A new node does not disturb the places found before. -/
theorem gap_alloc {r : Ring} {as : List Nat} {l : List Hex} {p : Place} {x : Hex} (hr : IsRingAt r as l) (hg : Gap r as p x) (y : Hex) :
    Gap (allocNode r y) as p x := by
  have hold : ∀ a, a < r.cap → (allocNode r y).heap a = r.heap a := by
    intro a ha
    simp [allocNode, Heap.upd, Nat.ne_of_lt ha]
  refine ⟨hg.far, hg.front, hg.fresh, ?_, ?_, ?_, hg.prv, hg.cur, ?_, ?_, ?_⟩
  · have := hg.alloc
    simp [allocNode]; omega
  · rw [hold _ hg.alloc]; exact hg.key
  · rw [hold _ hg.alloc]; exact hg.val
  · rw [hold _ (hr.alloc _ hg.prv)]; exact hg.lo
  · rw [hold _ (hr.alloc _ hg.cur)]; exact hg.hi
  · intro a ha
    rw [hold _ (hr.alloc _ ha), hold _ (hr.alloc _ hg.prv), hold _ (hr.alloc _ hg.cur)]
    exact hg.none a ha

/-- Writing at a good place. -/
theorem link_gap {r : Ring} {as : List Nat} {l : List Hex} {p : Place} {x : Hex} (hr : IsRingAt r as l) (hg : Gap r as p x) (hx : validateInput x = true) :
    ∃ as' l', IsRingAt (insertLink r (some p)) as' l' ∧ (∀ a, a ∈ as' ↔ a = p.node ∨ a ∈ as) ∧ (∀ y, y ∈ l' ↔ y = x ∨ y ∈ l) ∧
      (∀ a, ((insertLink r (some p)).heap a).key = (r.heap a).key ∧ ((insertLink r (some p)).heap a).val = (r.heap a).val) ∧
      (insertLink r (some p)).cap = r.cap := by
  obtain ⟨los, his, rfl, h1, h2, h3, h4⟩ := gap_split hr hg
  have hlo0 : los ≠ [] := by rintro rfl; simp at h1
  have d1 : p.prv ≠ p.node := fun e => hg.fresh (e ▸ hg.prv)
  have d2 : p.current ≠ p.node := fun e => hg.fresh (e ▸ hg.cur)
  have s1 := splice_isRing (n := p.node) (p := p.prv) (c := p.current) (x := x) hr (by simp [hlo0]) hg.fresh hg.alloc hg.key hg.val hx h3 h4
    (by rw [List.getLast?_append, h1]; rfl) (by rw [List.head?_append, h2]; rfl)
  rw [if_neg hlo0] at s1
  have e : insertLink r (some p) = { r with heap := spliced r.heap p.prv p.node p.current, head := r.head, size := r.size + 1 } := by
    simp only [insertLink, hg.front, Bool.false_eq_true, if_false]
    rw [splice_writes _ d1 d2 hg.far]
  rw [e]
  refine ⟨_, _, s1, ?_, ?_, fun a => ⟨rfl, rfl⟩, rfl⟩
  · intro a
    simp only [List.mem_append, List.mem_cons]
    grind
  · intro y
    rw [map_vals_split hr]
    simp only [List.mem_append, List.mem_cons]
    grind

/-- Another place stays good if a node of the ring lies between the two. -/
theorem gap_link {r : Ring} {as as' : List Nat} {p q : Place} {x y : Hex} (hg : Gap r as p x) (hq : Gap r as q y) (hpq : q.node ≠ p.node)
    (hsep : ∃ m ∈ as, (keyOf x < (r.heap m).key ∧ (r.heap m).key < keyOf y) ∨ (keyOf y < (r.heap m).key ∧ (r.heap m).key < keyOf x))
    (has : ∀ a, a ∈ as' ↔ a = p.node ∨ a ∈ as) {r' : Ring} (hh : ∀ a, (r'.heap a).key = (r.heap a).key ∧ (r'.heap a).val = (r.heap a).val) (hc : r'.cap = r.cap) :
    Gap r' as' q y := by
  refine ⟨hq.far, hq.front, ?_, by rw [hc]; exact hq.alloc, by rw [(hh _).1]; exact hq.key, by rw [(hh _).2]; exact hq.val, (has _).2 (.inr hq.prv), (has _).2 (.inr hq.cur),
    by rw [(hh _).1]; exact hq.lo, by rw [(hh _).1]; exact hq.hi, ?_⟩
  · rw [has]
    rintro (h | h)
    · exact hpq h
    · exact hq.fresh h
  · intro a ha
    rw [(hh _).1, (hh _).1, (hh _).1]
    rcases (has a).1 ha with rfl | ha
    · rw [hg.key]
      obtain ⟨m, hm, hsep⟩ := hsep
      have g1 := hq.none m hm
      have g2 := hq.lo
      have g3 := hq.hi
      omega
    · exact hq.none a ha

end FcRetrieval.RingShared
