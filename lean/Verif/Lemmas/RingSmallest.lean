import Verif.Lemmas.RingDamaged
/-! Helper lemmas: `GetClosest` for the smallest identifier on the ring, which is excluded. -/

set_option linter.unusedSimpArgs false

namespace FcRetrieval.Ring

/-- With nothing near on one side the expansion only goes clockwise. -/
theorem expand_right {h : Heap} {num : Int} {a D k : Nat} : ∀ {xs : List Nat} {x fuel n : Nat} {res : List Hex},
    Consecutive (fun p q => (h p).next = some q ∧ (h p).distNext = some ((h q).key - (h p).key) ∧ (h p).key < (h q).key) (x :: xs) →
    (∀ p ∈ x :: xs, ∃ e, (h p).distNext = some e) → (∀ p ∈ x :: xs, (h p).val ≠ (h a).val) → (∀ p ∈ x :: xs, (h p).key - k < D) →
    k ≤ (h x).key → num = (res.length : Int) + n + 1 → n ≤ xs.length → n < fuel →
    expandLoop h num fuel (some a) D (some x) ((h x).key - k) res = .ok (res ++ ((x :: xs).take (n + 1)).map (fun p => (h p).val))
  | xs, x, 0, n, res, _, _, _, _, _, _, _, hf => by omega
  | xs, x, fuel + 1, n, res, hc, hd, hv, hD, hk, hn, hl, hf => by
    have h1 := hv x (by simp)
    have h2 := hD x (by simp)
    obtain ⟨e, he⟩ := hd x (by simp)
    simp only [expandLoop, deref, derefInt, bind, Except.bind, pure, Except.pure, if_neg (Ne.symm h1), if_neg (Nat.not_le.2 h2), he]
    cases n with
    | zero => rw [if_pos (by simp; omega)]; simp
    | succ n =>
      rw [if_neg (by simp; omega)]
      cases xs with
      | nil => simp at hl
      | cons z xs =>
        obtain ⟨⟨k1, k2, k3⟩, k4⟩ := hc
        rw [k2] at he
        cases he
        rw [k1, show (h x).key - k + ((h z).key - (h x).key) = (h z).key - k by omega,
          expand_right (xs := xs) (x := z) (fuel := fuel) (n := n) (res := res ++ [(h x).val]) k4 (fun p hp => hd p (by simp_all))
            (fun p hp => hv p (by simp_all)) (fun p hp => hD p (by simp_all)) (by omega) (by simp; omega) (by simpa using hl) (by omega)]
        simp

theorem consecutive_and {α : Type} {R S : α → α → Prop} : ∀ {l : List α}, Consecutive R l → l.Pairwise S → Consecutive (fun a b => R a b ∧ S a b) l
  | [], _, _ => trivial
  | [_], _, _ => trivial
  | _ :: b :: _, h, hp => ⟨⟨h.1, (List.pairwise_cons.1 hp).1 b (by simp)⟩, consecutive_and h.2 (List.pairwise_cons.1 hp).2⟩

theorem consecutive_next {α : Type} {R : α → α → Prop} : ∀ {l : List α}, Consecutive R l → ∀ p ∈ l, (∃ q, R p q) ∨ l.getLast? = some p
  | [], _, p, hp => by simp at hp
  | [_], _, p, hp => by simp at hp; simp [hp]
  | a :: b :: l, h, p, hp => by
    rcases List.mem_cons.1 hp with rfl | hp
    · exact .inl ⟨b, h.1⟩
    · rw [List.getLast?_cons_cons]
      exact consecutive_next h.2 p hp

theorem cw_up {a b : Nat} (h : a < b) (hb : b < 2 ^ 256) : cw a b = b - a := by
  unfold cw
  rw [show b + 2 ^ 256 - a = (b - a) + 2 ^ 256 by omega, Nat.add_mod_right, Nat.mod_eq_of_lt (by omega)]

theorem insert_below {r : Ring} {x : Hex} {b : Nat} (hx : validateInput x = true) (hs : r.size ≠ 0) (hh : r.head = some b) (hb : b < r.cap)
    (hk : keyOf x < (r.heap b).key) :
    insert r x = .ok ⟨putBetween (allocNode r x).heap ((r.heap b).prv.getD b) r.cap b b, r.cap + 1, some r.cap, r.size + 1⟩ := by
  have e1 : ((allocNode r x).heap b) = r.heap b := by simp [allocNode, Heap.upd, Nat.ne_of_lt hb]
  have e2 : ((allocNode r x).heap r.cap).key = keyOf x := by simp [allocNode, Heap.upd]
  have e3 : (allocNode r x).size ≠ 0 := hs
  have e4 : (allocNode r x).head = some b := hh
  simp only [insert, hx, insertNode, if_neg e3, e4, deref, bind, Except.bind, pure, Except.pure, e1, e2, if_neg (show ¬ (r.heap b).key = keyOf x by omega),
    if_pos (show (r.heap b).key > keyOf x from hk), Bool.true_eq_false, if_false]
  rfl

theorem remove_head_big_at {r : Ring} {y : Hex} {a b : Nat} {rest : List Nat} {l : List Hex} (hr : IsRingAt r (a :: b :: rest) (y :: l)) (hl : 2 ≤ l.length) :
    remove r y = .ok ⟨((r.heap.setPrv a (some b)).setDistPrv b (some (r.heap.dist a b))).setDistNext a (some (r.heap.dist a b)), r.cap, some b, l.length⟩ := by
  have hy : validateInput y = true := hr.valid y (by simp)
  have hs := hr.size
  have hlen := hr.length
  simp only [List.length_cons] at hs hlen
  have hh := hr.head
  simp only [List.head?_cons] at hh
  have hva : (r.heap a).val = y := by have := hr.vals; simp at this; exact this.1
  have hlk := hr.links.1
  have hnd := hr.nodup
  have hab : a ≠ b := by simp at hnd; exact hnd.1.1
  have hprv : ((r.heap.setPrv a (some b)) b).prv = some a := by
    simp [Heap.setPrv, Heap.upd, Ne.symm hab, hlk.2.1]
  have hdist : (r.heap.setPrv a (some b)).dist a b = r.heap.dist a b := by
    simp [Heap.dist, Heap.setPrv, Heap.upd, Ne.symm hab]
  simp only [remove, hy, if_neg (show r.size ≠ 0 by omega), if_neg (show r.size ≠ 1 by omega), if_neg (show r.size ≠ 2 by omega), hh, deref, bind, Except.bind, pure,
    Except.pure, if_pos hva, hlk.1, hprv, hdist]
  rw [if_neg (by simp)]
  simp [hs]
  omega

/-- Asked for the nearest to the smallest identifier, without itself, the ring gives those that follow it clockwise. -/
theorem getClosest_smallest {r : Ring} {y : Hex} {l : List Hex} {n : Nat} (hr : IsRing r (y :: l)) (hl : 2 ≤ l.length) (hn : n + 1 ≤ l.length) :
    ∃ r', getClosest r y (n + 1 : Nat) y = .ok (r', .val (l.take (n + 1))) := by
  obtain ⟨as, hr⟩ := hr
  match as, hr with
  | [], hr => have := hr.vals; simp at this
  | [a], hr => have := hr.length; simp at this; subst this; simp at hl
  | a :: b :: rest, hr =>
    have hy : validateInput y = true := hr.valid y (by simp)
    have hyne : y ≠ [] := by
      rintro rfl
      exact absurd hy (by decide)
    have hsize := hr.size
    have hlen := hr.length
    simp only [List.length_cons] at hsize hlen
    have hvals := hr.vals
    simp only [List.map_cons, List.cons.injEq] at hvals
    obtain ⟨hva, hvl⟩ := hvals
    have hnd := hr.nodup
    have hka : (r.heap a).key = keyOf y := by rw [hr.keys a (by simp), hva]
    have hsn := hr.sorted_nodes
    have hkb : keyOf y < (r.heap b).key := by
      rw [← hka]
      exact (List.pairwise_cons.1 hsn).1 b (by simp)
    have hac := hr.alloc a (by simp)
    have hbc := hr.alloc b (by simp)
    have hne : ∀ p ∈ b :: rest, p ≠ a ∧ p ≠ r.cap := by
      intro p hp
      refine ⟨fun e => (List.nodup_cons.1 hnd).1 (e ▸ hp), Nat.ne_of_lt (hr.alloc p (List.mem_cons_of_mem _ hp))⟩
    have hab := (hne b (by simp)).1
    have hklt : keyOf y < 2 ^ 256 := keyOf_lt hy
    have hself : getDist (keyOf y) (keyOf y) = 2 ^ 256 := by
      unfold getDist
      rw [if_neg (by omega)]
      omega
    have hrem := remove_head_big_at hr hl
    generalize hH1 : ((r.heap.setPrv a (some b)).setDistPrv b (some (r.heap.dist a b))).setDistNext a (some (r.heap.dist a b)) = H1 at hrem
    have hprvb : (H1 b).prv = some a := by
      rw [← hH1]
      simp [Heap.setPrv, Heap.setDistPrv, Heap.setDistNext, Heap.upd, hab, hr.links.1.2.1]
    have hkb1 : (H1 b).key = (r.heap b).key := by
      rw [← hH1]
      simp [Heap.setPrv, Heap.setDistPrv, Heap.setDistNext, Heap.upd, hab]
    have hins := insert_below (r := ⟨H1, r.cap, some b, l.length⟩) (x := y) (b := b) hy (show l.length ≠ 0 by omega) rfl hbc (by rw [hkb1]; exact hkb)
    simp only [hprvb, Option.getD_some] at hins
    generalize hH2 : putBetween (allocNode ⟨H1, r.cap, some b, l.length⟩ y).heap a r.cap b b = H2 at hins
    have hn2 : (H2 r.cap).val = y ∧ (H2 r.cap).prv = some a ∧ (H2 r.cap).distPrv = some (2 ^ 256) ∧ (H2 r.cap).next = some b ∧
        (H2 r.cap).distNext = some ((r.heap b).key - keyOf y) := by
      have e := (hne b (by simp)).2
      have e' : r.cap ≠ a := Nat.ne_of_gt hac
      rw [← hH2, ← hH1, ← hself]
      simp [putBetween, allocNode, Heap.dist, Heap.setPrv, Heap.setNext, Heap.setDistPrv, Heap.setDistNext, Heap.upd, hab, Ne.symm hab, e, Ne.symm e, e', Ne.symm e', hka, getDist, hkb]
    have ha2 : (H2 a).val = y := by
      have e := (hne b (by simp)).2
      have e' : r.cap ≠ a := Nat.ne_of_gt hac
      rw [← hH2, ← hH1]
      simp [putBetween, allocNode, Heap.dist, Heap.setPrv, Heap.setNext, Heap.setDistPrv, Heap.setDistNext, Heap.upd, hab, Ne.symm hab, e, Ne.symm e, e', Ne.symm e', hva]
    have hb2 : (H2 b).prv = some r.cap := by
      have e := (hne b (by simp)).2
      rw [← hH2, ← hH1]
      simp [putBetween, allocNode, Heap.dist, Heap.setPrv, Heap.setNext, Heap.setDistPrv, Heap.setDistNext, Heap.upd, hab, Ne.symm hab, e, Ne.symm e]
    have hr2 : ∀ p ∈ b :: rest, (H2 p).val = (r.heap p).val ∧ (H2 p).key = (r.heap p).key ∧ (H2 p).next = (r.heap p).next ∧ (H2 p).distNext = (r.heap p).distNext := by
      intro p hp
      obtain ⟨e1, e2⟩ := hne p hp
      rw [← hH2, ← hH1]
      by_cases e3 : p = b
      · subst e3
        simp [putBetween, allocNode, Heap.dist, Heap.setPrv, Heap.setNext, Heap.setDistPrv, Heap.setDistNext, Heap.upd, e1, e2]
      · simp [putBetween, allocNode, Heap.dist, Heap.setPrv, Heap.setNext, Heap.setDistPrv, Heap.setDistNext, Heap.upd, e1, e2, e3]
    obtain ⟨n1, n2, n3, n4, n5⟩ := hn2
    have hkb2 := (hr2 b (by simp)).2.1
    have hexp := expand_right (h := H2) (num := (n + 1 : Nat)) (a := a) (D := 2 ^ 256) (k := keyOf y) (xs := rest) (x := b) (fuel := r.cap + 1 + 1) (n := n) (res := [])
      (by
        have hc := consecutive_tail hr.links
        refine consecutive_mono ?_ (consecutive_and hc (List.pairwise_cons.1 hsn).2)
        intro p hp q hq hpq
        obtain ⟨p1, p2, p3, p4⟩ := hr2 p (List.dropLast_subset _ hp)
        obtain ⟨q1, q2, q3, q4⟩ := hr2 q (List.mem_of_mem_tail hq)
        rw [p3, p4, p2, q2, ← cw_up hpq.2 (hr.key_lt (List.mem_cons_of_mem a (List.mem_of_mem_tail hq)))]
        exact ⟨hpq.1.1, hpq.1.2.2.1, hpq.2⟩)
      (by
        intro p hp
        rw [(hr2 p hp).2.2.2]
        rcases consecutive_next (consecutive_tail hr.links) p hp with ⟨q, hq⟩ | hq
        · exact ⟨_, hq.2.2.1⟩
        · exact ⟨_, (hr.closed (by simp) p a (by rw [List.getLast?_cons_cons]; exact hq) rfl).2.2.1⟩)
      (by
        intro p hp
        rw [(hr2 p hp).1, ha2]
        intro e
        have h1 := (List.pairwise_cons.1 hsn).1 p hp
        rw [hka, hr.keys p (List.mem_cons_of_mem _ hp), e] at h1
        omega)
      (by
        intro p hp
        rw [(hr2 p hp).2.1]
        have := hr.key_lt (List.mem_cons_of_mem a hp)
        omega)
      (by rw [hkb2]; omega) (by simp) (by omega) (by
        have := hr.length_le_cap
        simp at this
        omega)
    have hsearch : searchAndExpand ⟨H2, r.cap + 1, some r.cap, l.length + 1⟩ y (n + 1 : Nat) [] = .ok (l.take (n + 1)) := by
      rw [hkb2] at hexp
      simp only [searchAndExpand, deref, derefInt, searchLoop, bind, Except.bind, pure, Except.pure, n1, n2, n3, n4, n5, if_true, hexp, List.nil_append]
      rw [← hvl, ← List.map_cons (f := fun p => (r.heap p).val), ← List.map_take]
      refine congrArg Except.ok (List.map_congr_left fun p hp => ?_)
      exact (hr2 p (List.mem_of_mem_take hp)).1
    have hrem2 : ∃ H3, remove ⟨H2, r.cap + 1, some r.cap, l.length + 1⟩ y = .ok ⟨H3, r.cap + 1, some b, l.length⟩ ∧ (H3 b).key = (r.heap b).key := by
      have e := (hne b (by simp)).2
      have hprv : ((H2.setPrv r.cap (some b)) b).prv = some r.cap := by
        simp [Heap.setPrv, Heap.upd, e, hb2]
      refine ⟨((H2.setPrv r.cap (some b)).setDistPrv b (some ((H2.setPrv r.cap (some b)).dist r.cap b))).setDistNext r.cap
        (some ((H2.setPrv r.cap (some b)).dist r.cap b)), ?_, ?_⟩
      · simp only [remove, hy, if_neg (show l.length + 1 ≠ 0 by omega), if_neg (show l.length + 1 ≠ 1 by omega), if_neg (show l.length + 1 ≠ 2 by omega), deref, bind,
          Except.bind, pure, Except.pure, if_pos n1, n4, hprv, Bool.true_eq_false, if_false, Nat.add_sub_cancel]
      · simp [Heap.setPrv, Heap.setDistPrv, Heap.setDistNext, Heap.upd, e, hkb2]
    obtain ⟨H3, hrem2, hkb3⟩ := hrem2
    have hins2 := insert_below (r := ⟨H3, r.cap + 1, some b, l.length⟩) (x := y) (b := b) hy (show l.length ≠ 0 by omega) rfl (Nat.lt_succ_of_lt hbc) (by rw [hkb3]; exact hkb)
    generalize (Ring.mk (putBetween _ _ _ _ _) _ _ _) = r4 at hins2
    refine ⟨r4, ?_⟩
    · have hbody : closestBody ⟨H1, r.cap, some b, l.length⟩ y (n + 1 : Nat) = .ok (⟨H3, r.cap + 1, some b, l.length⟩, l.take (n + 1)) := by
        simp only [closestBody, insertSearchRemove, hins, hsearch, hrem2, bind, Except.bind, pure, Except.pure,
          if_neg (show ¬ (((n + 1 : Nat) : Int) > (l.length : Int)) by omega), if_neg (show ¬ l.length + 1 = l.length by omega)]
      simp only [getClosest, hy, hrem, hbody, hins2, bind, Except.bind, pure, Except.pure, Bool.true_eq_false, false_or, and_false, if_false, hsize,
        if_neg (show ¬ (((n + 1 : Nat) : Int) = 0 ∨ rest.length + 1 + 1 = 0 ∨ y ≠ [] ∧ rest.length + 1 + 1 = 1) by omega), if_pos hyne,
        if_pos (show l.length ≠ rest.length + 1 + 1 by omega)]

/-- Asked for more than there are: from the third smallest to the largest, and then the excluded one itself. -/
theorem getClosest_smallest_more {r : Ring} {y b : Hex} {l : List Hex} {num : Int} (hr : IsRing r (y :: b :: l)) (hl : 1 ≤ l.length)
    (hn : num > ((b :: l).length : Int)) : ∃ r', getClosest r y num y = .ok (r', .val (l ++ [y])) := by
  have hs := isRing_size hr
  have hy : validateInput y = true := isRing_valid hr y (by simp)
  have hby : b ≠ y := by
    intro e
    have := isRing_nodup hr
    simp [e] at this
  have hyne : y ≠ [] := by
    rintro rfl
    exact absurd hy (by decide)
  obtain ⟨r1, h1, h2, h3, as, hw⟩ := remove_head_big hr (by simp; omega)
  have hw' := hw
  obtain ⟨r2, h4⟩ := insert_ok (x := y) hw
  simp only [List.length_cons] at hs hn h2
  refine ⟨r2, ?_⟩
  have hbody : closestBody r1 y num = .ok (r1, l ++ [y]) := by
    unfold dump at h3
    split at h3
    · simp at h3
    · rename_i hd hh
      simp only [bind, Except.bind, pure, Except.pure] at h3
      split at h3
      · cases h3
      · rename_i rest hrest
        simp only [Except.ok.injEq, List.cons_append, List.cons.injEq] at h3
        obtain ⟨h3, rfl⟩ := h3
        rw [h3] at hrest
        simp only [closestBody, h2, if_pos hn, hh, deref, bind, Except.bind, pure, Except.pure, hrest, h3, if_neg hby, List.nil_append]
  simp only [getClosest, hy, h1, hbody, h4, bind, Except.bind, pure, Except.pure, Bool.true_eq_false, false_or, and_false, if_false, hs, h2,
    if_neg (show ¬ (num = 0 ∨ l.length + 1 + 1 = 0 ∨ y ≠ [] ∧ l.length + 1 + 1 = 1) by omega), if_pos hyne,
    if_pos (show l.length + 1 ≠ l.length + 1 + 1 by omega)]

end FcRetrieval.Ring
