import Verif.Lemmas.RingBasic
/-! Helper lemmas: `Insert` on well-formed rings. -/

namespace FcRetrieval.Ring

/-- The heap after putting node `n` between `p` and `c`. -/
def spliced (h : Heap) (p n c : Nat) : Heap := fun i =>
  { prv := if i = n then some p else if i = c then some n else (h i).prv
    distPrv := if i = n then some (h.dist p n) else if i = c then some (h.dist n c) else (h i).distPrv
    key := (h i).key
    val := (h i).val
    distNext := if i = n then some (h.dist n c) else if i = p then some (h.dist p n) else (h i).distNext
    next := if i = n then some c else if i = p then some n else (h i).next }

theorem splice_writes (h : Heap) {p n c c' : Nat} (hp : p ≠ n) (hc : c ≠ n) (hc' : c' = c) :
    putBetween h p n c c' = spliced h p n c := by
  unfold putBetween
  subst hc'
  funext i
  simp only [Heap.setPrv, Heap.setDistPrv, Heap.setNext, Heap.setDistNext, Heap.upd, Heap.dist, spliced]
  by_cases h1 : i = n
  · subst h1
    simp [Ne.symm hp, Ne.symm hc]
    grind
  · by_cases h2 : i = c' <;> by_cases h3 : i = p <;> simp [h1, h2, h3] <;> grind

theorem linked_new_right {h : Heap} {p n c : Nat} (hp : p ≠ n)
    (hd : h.dist p n = cw (h p).key (h n).key) : Linked (spliced h p n c) p n := by
  refine ⟨?_, ?_, ?_, ?_⟩ <;> simp [spliced, hp, hd]

theorem linked_new_left {h : Heap} {p n c : Nat} (hc : c ≠ n)
    (hd : h.dist n c = cw (h n).key (h c).key) : Linked (spliced h p n c) n c := by
  refine ⟨?_, ?_, ?_, ?_⟩ <;> simp [spliced, hc, hd]

theorem linked_spliced {h : Heap} {p n c a b : Nat} (ha : a ≠ n) (hb : b ≠ n) (hap : a ≠ p) (hbc : b ≠ c)
    (hl : Linked h a b) : Linked (spliced h p n c) a b := by
  obtain ⟨h1, h2, h3, h4⟩ := hl
  refine ⟨?_, ?_, ?_, ?_⟩ <;> simp [spliced, ha, hb, hap, hbc, h1, h2, h3, h4]

/-- Allocation of a fresh node does not disturb the nodes of the ring. -/
theorem linked_alloc {h : Heap} {n a b : Nat} {f : Node → Node} (ha : a ≠ n) (hb : b ≠ n)
    (hl : Linked h a b) : Linked (h.upd n f) a b := by
  simpa [Linked, Heap.upd, ha, hb] using hl

theorem IsRingAt.alloc_upd {r : Ring} {as : List Nat} {l : List Hex} (hr : IsRingAt r as l) (f : Node → Node) :
    IsRingAt { r with heap := r.heap.upd r.cap f, cap := r.cap + 1 } as l := by
  have hne : ∀ a ∈ as, a ≠ r.cap := fun a ha => Nat.ne_of_lt (hr.alloc a ha)
  constructor
  · exact hr.head
  · exact hr.size
  · exact hr.nodup
  · intro a ha; exact Nat.lt_succ_of_lt (hr.alloc a ha)
  · rw [← hr.vals]
    apply List.map_congr_left
    intro a ha
    simp [Heap.upd, hne a ha]
  · intro a ha
    simpa [Heap.upd, hne a ha] using hr.keys a ha
  · exact hr.valid
  · exact hr.sorted
  · refine consecutive_mono ?_ hr.links
    intro a ha b hb
    exact linked_alloc (hne a (List.dropLast_subset _ ha)) (hne b (List.mem_of_mem_tail hb))
  · intro a ha
    have := hr.single a ha
    simpa [Heap.upd, hne a (by simp [ha])] using this
  · intro h2 a b ha hb
    exact linked_alloc (hne a (List.mem_of_getLast? ha)) (hne b (List.mem_of_head? hb)) (hr.closed h2 a b ha hb)

/-- Keys of ring nodes are 256-bit. -/
theorem IsRingAt.key_lt {r : Ring} {as : List Nat} {l : List Hex} (hr : IsRingAt r as l) {a : Nat} (ha : a ∈ as) :
    (r.heap a).key < 2 ^ 256 := by
  rw [hr.keys a ha]
  apply keyOf_lt
  apply hr.valid
  rw [← hr.vals]
  exact List.mem_map_of_mem ha

theorem IsRingAt.length {r : Ring} {as : List Nat} {l : List Hex} (hr : IsRingAt r as l) : l.length = as.length := by
  rw [← hr.vals, List.length_map]

theorem IsRingAt.length_le_cap {r : Ring} {as : List Nat} {l : List Hex} (hr : IsRingAt r as l) :
    as.length ≤ r.cap := nodup_length_le _ _ hr.nodup hr.alloc

/-- Sortedness at the level of nodes. -/
theorem IsRingAt.sorted_nodes {r : Ring} {as : List Nat} {l : List Hex} (hr : IsRingAt r as l) :
    as.Pairwise (fun a b => (r.heap a).key < (r.heap b).key) := by
  have h := hr.sorted
  rw [← hr.vals, List.pairwise_map] at h
  refine h.imp_of_mem ?_
  intro a b ha hb hab
  rw [hr.keys a ha, hr.keys b hb]
  exact hab

/-- Putting a new node `n` with an in-between key between its neighbours gives a well-formed ring. -/
theorem splice_isRing {r : Ring} {lo hi : List Nat} {l : List Hex} {n p c : Nat} {x : Hex}
    (hr : IsRingAt r (lo ++ hi) l) (hne : lo ++ hi ≠ [])
    (hn : n ∉ lo ++ hi) (hcap : n < r.cap) (hkey : (r.heap n).key = keyOf x) (hval : (r.heap n).val = x)
    (hx : validateInput x = true)
    (hlo : ∀ a ∈ lo, (r.heap a).key < keyOf x) (hhi : ∀ a ∈ hi, keyOf x < (r.heap a).key)
    (hp : (hi ++ lo).getLast? = some p) (hc : (hi ++ lo).head? = some c) :
    IsRingAt { r with heap := spliced r.heap p n c, head := if lo = [] then some n else r.head, size := r.size + 1 }
      (lo ++ n :: hi) ((lo.map fun a => (r.heap a).val) ++ x :: (hi.map fun a => (r.heap a).val)) := by
  have hpm : p ∈ lo ++ hi := by
    have := List.mem_of_getLast? hp
    simp only [List.mem_append] at this ⊢; exact this.symm
  have hcm : c ∈ lo ++ hi := by
    have := List.mem_of_head? hc
    simp only [List.mem_append] at this ⊢; exact this.symm
  have hpn : p ≠ n := fun e => hn (e ▸ hpm)
  have hcn : c ≠ n := fun e => hn (e ▸ hcm)
  have hnk : (r.heap n).key < 2 ^ 256 := by rw [hkey]; exact keyOf_lt hx
  have hneq : ∀ a ∈ lo ++ hi, (r.heap a).key ≠ (r.heap n).key := by
    intro a ha
    rw [hkey]
    rcases List.mem_append.mp ha with h | h
    · exact Nat.ne_of_lt (hlo a h)
    · exact Nat.ne_of_gt (hhi a h)
  have hd1 : r.heap.dist p n = cw (r.heap p).key (r.heap n).key :=
    getDist_eq_cw (hr.key_lt hpm) hnk (hneq p hpm)
  have hd2 : r.heap.dist n c = cw (r.heap n).key (r.heap c).key :=
    getDist_eq_cw hnk (hr.key_lt hcm) (hneq c hcm).symm
  have hnd := hr.nodup
  rw [List.nodup_append] at hnd
  obtain ⟨hndlo, hndhi, hdisj⟩ := hnd
  have hnlo : n ∉ lo := fun h => hn (List.mem_append_left _ h)
  have hnhi : n ∉ hi := fun h => hn (List.mem_append_right _ h)
  have hlinks := hr.links
  rw [consecutive_append] at hlinks
  obtain ⟨hllo, hlhi, hlmid⟩ := hlinks
  -- interior links of each part survive
  have hlo' : Consecutive (Linked (spliced r.heap p n c)) lo := by
    refine consecutive_mono ?_ hllo
    intro a ha b hb hl
    have ha' := List.dropLast_subset _ ha
    have hb' := List.mem_of_mem_tail hb
    refine linked_spliced (fun e => hnlo (e ▸ ha')) (fun e => hnlo (e ▸ hb')) ?_ ?_ hl
    · rintro rfl
      have hlne : lo ≠ [] := by rintro rfl; simp at ha'
      have : lo.getLast? = some a := by
        rw [List.getLast?_append] at hp
        cases hg : lo.getLast? with
        | none => exact absurd (List.getLast?_eq_none_iff.mp hg) hlne
        | some z => rw [hg] at hp; simpa using hp
      exact getLast_not_mem_dropLast hndlo this ha
    · rintro rfl
      cases hi with
      | nil => exact head_not_mem_tail hndlo (by simpa using hc) hb
      | cons d hi =>
        simp only [List.cons_append, List.head?_cons, Option.some.injEq] at hc
        subst hc
        exact hdisj d hb' d (by simp) rfl
  have hhi' : Consecutive (Linked (spliced r.heap p n c)) hi := by
    refine consecutive_mono ?_ hlhi
    intro a ha b hb hl
    have ha' := List.dropLast_subset _ ha
    have hb' := List.mem_of_mem_tail hb
    refine linked_spliced (fun e => hnhi (e ▸ ha')) (fun e => hnhi (e ▸ hb')) ?_ ?_ hl
    · rintro rfl
      rw [List.getLast?_append] at hp
      cases hg : lo.getLast? with
      | none =>
        rw [hg] at hp
        exact getLast_not_mem_dropLast hndhi (by simpa using hp) ha
      | some z =>
        rw [hg] at hp
        simp at hp
        subst hp
        exact hdisj z (List.mem_of_getLast? hg) z ha' rfl
    · rintro rfl
      have hhine : hi ≠ [] := by rintro rfl; simp at ha'
      cases hi with
      | nil => exact absurd rfl hhine
      | cons d hi =>
        simp only [List.cons_append, List.head?_cons, Option.some.injEq] at hc
        subst hc
        exact head_not_mem_tail hndhi rfl hb
  have hlast : ∀ a, lo.getLast? = some a → a = p := by
    intro a ha
    rw [List.getLast?_append, ha] at hp
    simpa using hp
  have hfirst : ∀ b, hi.head? = some b → b = c := by
    intro b hb
    rw [List.head?_append, hb] at hc
    simpa using hc
  constructor
  · cases lo with
    | nil => simp
    | cons a lo => simp [hr.head]
  · simp [hr.size]; omega
  · rw [List.nodup_append]
    refine ⟨hndlo, List.nodup_cons.mpr ⟨hnhi, hndhi⟩, ?_⟩
    intro a ha b hb
    rcases List.mem_cons.mp hb with rfl | hb
    · exact fun e => hnlo (e ▸ ha)
    · exact hdisj a ha b hb
  · intro a ha
    simp only [List.mem_append, List.mem_cons] at ha
    rcases ha with ha | rfl | ha
    · exact hr.alloc a (List.mem_append_left _ ha)
    · exact hcap
    · exact hr.alloc a (List.mem_append_right _ ha)
  · simp [spliced, hval]
  · intro a ha
    simp only [List.mem_append, List.mem_cons] at ha
    simp only [spliced]
    rcases ha with ha | rfl | ha
    · exact hr.keys a (List.mem_append_left _ ha)
    · rw [hkey, hval]
    · exact hr.keys a (List.mem_append_right _ ha)
  · intro y hy
    have hv := hr.valid
    rw [← hr.vals] at hv
    simp only [List.mem_append, List.mem_cons, List.mem_map] at hy hv
    rcases hy with ⟨a, ha, rfl⟩ | rfl | ⟨a, ha, rfl⟩
    · exact hv _ ⟨a, Or.inl ha, rfl⟩
    · exact hx
    · exact hv _ ⟨a, Or.inr ha, rfl⟩
  · have hs := hr.sorted
    rw [← hr.vals, List.map_append, List.pairwise_append] at hs
    rw [List.pairwise_append]
    refine ⟨hs.1, List.pairwise_cons.mpr ⟨?_, hs.2.1⟩, ?_⟩
    · intro y hy
      obtain ⟨a, ha, rfl⟩ := List.mem_map.mp hy
      rw [← hr.keys a (List.mem_append_right _ ha)]
      exact hhi a ha
    · intro y hy z hz
      rcases List.mem_cons.mp hz with rfl | hz
      · obtain ⟨a, ha, rfl⟩ := List.mem_map.mp hy
        rw [← hr.keys a (List.mem_append_left _ ha)]
        exact hlo a ha
      · exact hs.2.2 y hy z hz
  · rw [consecutive_append]
    refine ⟨hlo', ?_, ?_⟩
    · have : n :: hi = [n] ++ hi := rfl
      rw [this, consecutive_append]
      refine ⟨trivial, hhi', ?_⟩
      intro a b ha hb
      simp at ha
      subst ha
      rw [hfirst b hb]
      exact linked_new_left hcn hd2
    · intro a b ha hb
      simp at hb
      subst hb
      rw [hlast a ha]
      exact linked_new_right hpn hd1
  · intro a ha
    exfalso
    have := congrArg List.length ha
    simp at this
    apply hne
    rw [List.append_eq_nil_iff]
    exact ⟨List.eq_nil_of_length_eq_zero (by omega), List.eq_nil_of_length_eq_zero (by omega)⟩
  · intro _ a b ha hb
    cases hi with
    | nil =>
      simp at ha
      subst ha
      cases lo with
      | nil => simp at hne
      | cons d lo =>
        simp at hb hc
        subst hb hc
        exact linked_new_left hcn hd2
    | cons d hi =>
      rw [List.getLast?_append, List.getLast?_cons_cons] at ha
      have hds : ∃ z, (d :: hi).getLast? = some z := ⟨_, List.getLast?_eq_some_getLast (by simp)⟩
      obtain ⟨z, hz⟩ := hds
      rw [hz] at ha
      simp at ha
      subst ha
      cases lo with
      | nil =>
        simp at hb
        subst hb
        have hzp : z = p := by
          simp only [List.append_nil] at hp
          rw [hz] at hp; simpa using hp
        subst hzp
        exact linked_new_right hpn hd1
      | cons e lo =>
        simp at hb
        subst hb
        have hzm : z ∈ d :: hi := List.mem_of_getLast? hz
        have hold := hr.closed (by simp; omega) z e (by rw [List.getLast?_append, hz]; rfl) (by simp)
        refine linked_spliced (fun e' => hnhi (e' ▸ hzm)) (fun e' => hnlo (e' ▸ (by simp))) ?_ ?_ hold
        · rintro rfl
          have : z ∈ e :: lo := by
            rw [List.getLast?_append] at hp
            cases hg : (e :: lo).getLast? with
            | none => simp at hg
            | some w => rw [hg] at hp; simp at hp; subst hp; exact List.mem_of_getLast? hg
          exact hdisj z this z hzm rfl
        · rintro rfl
          simp at hc
          exact hdisj e (by simp) d (by simp) hc.symm

end FcRetrieval.Ring
