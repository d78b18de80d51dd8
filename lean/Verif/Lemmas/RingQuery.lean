import Verif.Lemmas.RingClosest
/-! Helper lemmas: `GetClosest` as a whole. -/

set_option linter.unusedSimpArgs false

namespace FcRetrieval.Ring

theorem circ_eq_shorter {k a : Nat} (hk : k < 2 ^ 256) (ha : a < 2 ^ 256) (h : k ≠ a) :
    circ k a = shorter (2 ^ 256) (cw k a) := by
  unfold circ shorter
  rw [cw_back hk ha h]

/-- Seen from the target, the nodes after it and then the nodes before it lie at increasing clockwise offsets. -/
theorem IsRingAt.offsets {r : Ring} {lo hi : List Nat} {l : List Hex} {n : Nat} (hr : IsRingAt r (lo ++ n :: hi) l) :
    (hi ++ lo).Pairwise (fun a b => cw (r.heap n).key (r.heap a).key < cw (r.heap n).key (r.heap b).key ∧
      (r.heap a).val ≠ (r.heap b).val) := by
  have hs := hr.sorted_nodes
  rw [List.pairwise_append, List.pairwise_cons] at hs
  obtain ⟨hlo, ⟨hnhi, hhi⟩, hcross⟩ := hs
  have hmem : ∀ a ∈ hi ++ lo, a ∈ lo ++ n :: hi := by
    intro a ha; simp only [List.mem_append, List.mem_cons] at ha ⊢; grind
  have hn := hr.key_lt (a := n) (by simp)
  have key_ne : ∀ a ∈ hi ++ lo, ∀ b ∈ hi ++ lo, (r.heap a).key ≠ (r.heap b).key → (r.heap a).val ≠ (r.heap b).val := by
    intro a ha b hb hne he
    exact hne (by rw [hr.keys a (hmem a ha), hr.keys b (hmem b hb), he])
  rw [List.pairwise_append]
  refine ⟨?_, ?_, ?_⟩
  · refine hhi.imp_of_mem ?_
    intro a b ha hb hab
    refine ⟨?_, key_ne a (by simp [ha]) b (by simp [hb]) (Nat.ne_of_lt hab)⟩
    have h1 := hnhi a ha
    have h2 := hnhi b hb
    rw [cw_eq hn (hr.key_lt (hmem a (by simp [ha]))), cw_eq hn (hr.key_lt (hmem b (by simp [hb])))]
    rw [if_pos (by omega), if_pos (by omega)]
    omega
  · refine hlo.imp_of_mem ?_
    intro a b ha hb hab
    refine ⟨?_, key_ne a (by simp [ha]) b (by simp [hb]) (Nat.ne_of_lt hab)⟩
    have h1 := hcross a ha n (by simp)
    have h2 := hcross b hb n (by simp)
    rw [cw_eq hn (hr.key_lt (hmem a (by simp [ha]))), cw_eq hn (hr.key_lt (hmem b (by simp [hb])))]
    rw [if_neg (by omega), if_neg (by omega)]
    omega
  · intro a ha b hb
    have h3 := hcross b hb a (by simp [ha])
    refine ⟨?_, key_ne a (by simp [ha]) b (by simp [hb]) (Nat.ne_of_gt h3)⟩
    have h1 := hnhi a ha
    have h2 := hcross b hb n (by simp)
    have hak := hr.key_lt (hmem a (by simp [ha]))
    rw [cw_eq hn hak, cw_eq hn (hr.key_lt (hmem b (by simp [hb])))]
    rw [if_pos (by omega), if_neg (by omega)]
    omega

theorem IsRingAt.around {r : Ring} {lo hi : List Nat} {l : List Hex} {n : Nat} (hr : IsRingAt r (lo ++ n :: hi) l) :
    Consecutive (Linked r.heap) (hi ++ lo) := by
  have hl := hr.links
  rw [consecutive_append] at hl
  rw [consecutive_append]
  refine ⟨consecutive_tail hl.2.1, hl.1, ?_⟩
  intro a b ha hb
  refine hr.closed ?_ a b ?_ ?_
  · cases lo with
    | nil => simp at hb
    | cons _ _ => simp; omega
  · cases hi with
    | nil => simp at ha
    | cons d hi => rw [List.getLast?_append, List.getLast?_cons_cons, ha]; rfl
  · rw [List.head?_append, hb]; rfl

/-- Splitting a ring at a stored identifier. -/
theorem IsRingAt.split {r : Ring} {as : List Nat} {l : List Hex} {x : Hex} (hr : IsRingAt r as l) (hx : x ∈ l) :
    ∃ lo n hi, as = lo ++ n :: hi ∧ (r.heap n).val = x := by
  rw [← hr.vals] at hx
  obtain ⟨n, hn, hnx⟩ := List.mem_map.mp hx
  obtain ⟨lo, hi, rfl⟩ := List.append_of_mem hn
  exact ⟨lo, n, hi, rfl, hnx⟩

/-- The result of the expansion around a stored identifier `x`, on the level of identifiers. -/
theorem searchAndExpand_eq {r : Ring} {l : List Hex} {x : Hex} (hr : IsRing r l) (hx : x ∈ l) (h2 : 2 ≤ l.length)
    (num : Int) (res : List Hex) :
    ∃ lo hi R M L, l = lo ++ x :: hi ∧ hi ++ lo = R ++ M ++ L ∧
      searchAndExpand r x num res = .ok (L ++ res ++ R) ∧
      (∀ y ∈ R ++ L, ∀ z ∈ M, circ (keyOf x) (keyOf y) ≤ circ (keyOf x) (keyOf z)) ∧
      ((res.length : Int) < num → num ≤ res.length + (l.length - 1 : Nat) →
        ((L ++ res ++ R).length : Int) = num) ∧
      ((res.length : Int) ≥ num → M = []) ∧
      ((res.length : Int) + (l.length - 1 : Nat) = num → R ≠ [] ∧
        ∀ rest q p, hi ++ lo = rest ++ [q, p] → (L = [] ↔ cw (keyOf x) (keyOf q) < cw (keyOf p) (keyOf x))) := by
  obtain ⟨as, hr⟩ := hr
  obtain ⟨lo, n, hi, rfl, hn⟩ := hr.split hx
  have hlen := hr.length
  rw [hlen] at h2
  obtain ⟨p, c, hp, hc, hpn, hnc⟩ := hr.neighbours h2
  have hnk := hr.key_lt (a := n) (by simp)
  have hmem : ∀ a ∈ hi ++ lo, a ∈ lo ++ n :: hi := by
    intro a ha; simp only [List.mem_append, List.mem_cons] at ha ⊢; grind
  have hxk : keyOf x = (r.heap n).key := by rw [hr.keys n (by simp), hn]
  -- keys of other nodes differ from the target's
  have hkne : ∀ a ∈ hi ++ lo, (r.heap n).key ≠ (r.heap a).key := by
    intro a ha he
    have hval : (r.heap n).val ≠ (r.heap a).val := by
      intro hv
      have := hr.val_inj (by simp) (hmem a ha) hv
      subst this
      have hnd := hr.nodup
      rw [List.nodup_append, List.nodup_cons] at hnd
      simp only [List.mem_append] at ha
      rcases ha with ha | ha
      · exact hnd.2.1.1 ha
      · exact hnd.2.2 n ha n (by simp) rfl
    have hs := hr.sorted_nodes
    rw [List.pairwise_append, List.pairwise_cons] at hs
    simp only [List.mem_append] at ha
    rcases ha with ha | ha
    · have := hs.2.1.1 a ha; omega
    · have := hs.2.2 a ha n (by simp); omega
  obtain ⟨R, M, L, hsplit, heq, hnear, hcount, hall, hends⟩ := expandLoop_eq (h := r.heap) (num := num) (N := 2 ^ 256)
    (off := fun a => cw (r.heap n).key (r.heap a).key) (fun a => cw_lt _ _) (hi ++ lo).length
    (mid := hi ++ lo) (fuel := r.cap + 1) (first := c) (last := p) (res := res) rfl hc hp hr.around
    (fun a ha b hb h => cw_sub hnk (hr.key_lt (hmem a ha)) (hr.key_lt (hmem b hb)) h) hr.offsets (by
      have := hr.length_le_cap; simp at this ⊢; omega)
  refine ⟨lo.map fun a => (r.heap a).val, hi.map fun a => (r.heap a).val, R.map fun a => (r.heap a).val,
    M.map fun a => (r.heap a).val, L.map fun a => (r.heap a).val, ?_, ?_, ?_, ?_, ?_, ?_, ?_⟩
  · rw [← hr.vals, ← hn]; simp
  · rw [← List.map_append, ← List.map_append, ← List.map_append, hsplit]
  · -- the search finds the node
    have hsearch : ∀ hd, r.head = some hd → searchLoop r.heap (r.heap hd).val x (r.cap + 1) hd = .ok n := by
      intro hd hhd
      have hh := hr.head
      cases lo with
      | nil =>
        rw [hhd] at hh
        simp at hh
        subst hh
        simp [searchLoop, hn]
      | cons d lo =>
        rw [hhd] at hh
        simp at hh
        subst hh
        have hpath := hr.path
        have hrn := hr.rest_ne_head
        refine searchLoop_eq hn hpath ?_ ?_ ?_
        · intro a ha he
          have hnd := hr.nodup
          have : a = n := hr.val_inj (List.mem_append_left _ ha) (by simp) (by rw [he, hn])
          rw [List.nodup_append] at hnd
          exact hnd.2.2 a ha n (by simp) this
        · intro a ha
          refine hrn a ?_
          simp at ha ⊢; grind
        · have := hr.length_le_cap; simp at this; omega
    cases hhd : r.head with
    | none =>
      have hh := hr.head
      rw [hhd] at hh
      cases lo <;> simp at hh
    | some hd =>
      have hpm := hmem p (List.mem_of_getLast? hp)
      have hcm := hmem c (List.mem_of_head? hc)
      have hd1 : cw (r.heap p).key (r.heap n).key = 2 ^ 256 - cw (r.heap n).key (r.heap p).key :=
        cw_back hnk (hr.key_lt hpm) (hkne p (List.mem_of_getLast? hp))
      simp only [searchAndExpand, hhd, deref, bind, Except.bind, hsearch hd hhd, hpn.2.2.2, hnc.2.2.1, derefInt,
        hpn.2.1, hnc.1, hd1, heq]
  · intro y hy z hz
    rw [← List.map_append] at hy
    obtain ⟨a, ha, rfl⟩ := List.mem_map.mp hy
    obtain ⟨b, hb, rfl⟩ := List.mem_map.mp hz
    have ham : a ∈ hi ++ lo := by rw [hsplit]; simp at ha ⊢; grind
    have hbm : b ∈ hi ++ lo := by rw [hsplit]; simp [hb]
    have h1 := hr.keys a (hmem a ham)
    have h2 := hr.keys b (hmem b hbm)
    rw [← h1, ← h2, hxk, circ_eq_shorter hnk (hr.key_lt (hmem a ham)) (hkne a ham),
      circ_eq_shorter hnk (hr.key_lt (hmem b hbm)) (hkne b hbm)]
    exact hnear a ha b hb
  · intro h1 h2'
    have := hcount h1 (by rw [hlen] at h2'; simp at h2' ⊢; omega)
    simp at this ⊢
    omega
  · intro h1
    rw [hall h1]; rfl
  · intro h1
    obtain ⟨e1, e2⟩ := hends (by rw [hlen] at h1; simp only [List.length_append, List.length_cons] at h1 ⊢; omega)
    refine ⟨by simpa using e1, fun rest q p' hsp => ?_⟩
    rw [← List.map_append] at hsp
    obtain ⟨as1, as2, e3, e4, e5⟩ := List.map_eq_append_iff.1 hsp
    match as2, e5 with
    | [b, p''], e5 =>
      simp only [List.map_cons, List.map_nil, List.cons.injEq, and_true] at e5
      obtain ⟨rfl, rfl⟩ := e5
      have hpp : p'' = p := by
        rw [e3] at hp
        simpa using hp
      subst hpp
      have hbm : b ∈ hi ++ lo := by rw [e3]; simp
      have hpm : p'' ∈ hi ++ lo := by rw [e3]; simp
      have := e2 b (by rw [e3, show as1 ++ [b, p''] = (as1 ++ [b]) ++ [p''] by simp, List.dropLast_concat]; simp)
      rw [hxk, ← hr.keys b (hmem b hbm), ← hr.keys p'' (hmem p'' hpm), cw_back hnk (hr.key_lt (hmem p'' hpm)) (hkne p'' hpm)]
      rw [List.map_eq_nil_iff]
      exact this

theorem mem_addSorted {x y : Hex} : ∀ {l : List Hex}, y ∈ addSorted x l → y = x ∨ y ∈ l
  | [], h => by simp [addSorted] at h; exact Or.inl h
  | z :: l, h => by
    unfold addSorted at h
    split at h
    · simpa using h
    · split at h
      · exact Or.inr h
      · rcases List.mem_cons.mp h with rfl | h
        · simp
        · rcases mem_addSorted h with h | h
          · exact Or.inl h
          · exact Or.inr (by simp [h])

/-- Adding a value that is not there. -/
theorem addSorted_new {x : Hex} : ∀ {l : List Hex}, l.Pairwise (fun a b => keyOf a < keyOf b) →
    (∀ y ∈ l, keyOf y ≠ keyOf x) → ∃ lo hi, l = lo ++ hi ∧ addSorted x l = lo ++ x :: hi ∧
      (∀ y ∈ lo, keyOf y < keyOf x) ∧ (∀ y ∈ hi, keyOf x < keyOf y)
  | [], _, _ => ⟨[], [], rfl, rfl, by simp, by simp⟩
  | y :: l, hs, hne => by
    rw [List.pairwise_cons] at hs
    have h1 := hne y (by simp)
    by_cases h2 : keyOf x < keyOf y
    · refine ⟨[], y :: l, rfl, by simp [addSorted, h2], by simp, ?_⟩
      intro z hz
      rcases List.mem_cons.mp hz with rfl | hz
      · exact h2
      · have := hs.1 z hz; omega
    · obtain ⟨lo, hi, rfl, h3, h4, h5⟩ := addSorted_new hs.2 (fun z hz => hne z (by simp [hz]))
      refine ⟨y :: lo, hi, rfl, ?_, ?_, h5⟩
      · simp [addSorted, h2, Ne.symm h1, h3]
      · intro z hz
        rcases List.mem_cons.mp hz with rfl | hz
        · omega
        · exact h4 z hz

theorem isRing_sorted {r : Ring} {l : List Hex} (hr : IsRing r l) : l.Pairwise (fun a b => keyOf a < keyOf b) := by
  obtain ⟨as, hr⟩ := hr; exact hr.sorted

theorem isRing_valid {r : Ring} {l : List Hex} (hr : IsRing r l) : ∀ x ∈ l, validateInput x = true := by
  obtain ⟨as, hr⟩ := hr; exact hr.valid

theorem isRing_nodup {r : Ring} {l : List Hex} (hr : IsRing r l) : l.Nodup :=
  (isRing_sorted hr).imp fun h e => by subst e; omega

/-- What `insertSearchRemove` leaves behind: the same ring, or (when the target is below all of two or more
identifiers) a damaged one in which the target stays linked. -/
def LeftBehind (r : Ring) (l : List Hex) (x : Hex) : Prop :=
  (IsRing r l ∧ ¬ (2 ≤ l.length ∧ ∀ y ∈ l, keyOf x < keyOf y)) ∨
  ((2 ≤ l.length ∧ ∀ y ∈ l, keyOf x < keyOf y) ∧ r.size = l.length ∧ dump r = .ok (l ++ [x]) ∧
    ∃ as, Walkable r as)

/-- Removal of the temporary entry. -/
theorem remove_temp {r : Ring} {lo hi : List Hex} {x : Hex} (hr : IsRing r (lo ++ x :: hi)) :
    ∃ r', remove r x = .ok r' ∧ LeftBehind r' (lo ++ hi) x := by
  have hx : validateInput x = true := isRing_valid hr x (by simp)
  have hs := isRing_sorted hr
  rw [List.pairwise_append, List.pairwise_cons] at hs
  by_cases hbad : lo = [] ∧ 2 ≤ hi.length
  · obtain ⟨rfl, hh⟩ := hbad
    obtain ⟨r', h1, h2, h3, h4⟩ := remove_head_big hr hh
    exact ⟨r', h1, Or.inr ⟨⟨hh, fun y hy => hs.2.1.1 y hy⟩, h2, h3, h4⟩⟩
  · have hclean : CleanRemove (lo ++ x :: hi) x := by
      refine ⟨?_, ?_⟩
      · intro h1
        cases lo with
        | nil => cases hi <;> simp_all
        | cons _ _ => simp at h1
      · intro h3 hh
        cases lo with
        | nil => apply hbad; simp at h3; exact ⟨rfl, by omega⟩
        | cons d lo =>
          simp at hh
          subst hh
          have := hs.2.2 d (by simp) d (by simp)
          omega
    obtain ⟨r', h1, h2⟩ := remove_clean hr hx hclean
    refine ⟨r', h1, Or.inl ⟨?_, ?_⟩⟩
    · have : (lo ++ x :: hi).erase x = lo ++ hi := by
        rw [List.erase_append_right]
        · simp
        · intro hm
          have := hs.2.2 x hm x (by simp)
          omega
      rw [this] at h2
      exact h2
    · rintro ⟨hl, hall⟩
      apply hbad
      refine ⟨?_, ?_⟩
      · cases lo with
        | nil => rfl
        | cons d lo =>
          have h1 := hs.2.2 d (by simp) x (by simp)
          have h2 := hall d (by simp)
          omega
      · cases lo with
        | nil => simpa using hl
        | cons d lo =>
          have h1 := hs.2.2 d (by simp) x (by simp)
          have h2 := hall d (by simp)
          omega

/-- `GetClosest` between the exclusion and the return, for `num ≤ size`. -/
theorem insertSearchRemove_eq {r : Ring} {l : List Hex} {x : Hex} {num : Int} (hr : IsRing r l) (hx : validateInput x = true)
    (hsp : SameSpelling l x) (hl : l ≠ []) (hnum : num ≤ l.length) (hn1 : 1 ≤ num) :
    ∃ r' res R M L, insertSearchRemove r x num = .ok (r', res) ∧
      (∃ lo hi, l = lo ++ hi ∧ hi ++ lo = R ++ M ++ L ∧ (∀ y ∈ lo, keyOf y < keyOf x) ∧ (∀ y ∈ hi, keyOf x ≤ keyOf y)) ∧
      res = L ++ R ∧
      (∀ y ∈ res, ∀ z ∈ M, circ (keyOf x) (keyOf y) ≤ circ (keyOf x) (keyOf z)) ∧
      (res.length : Int) = num ∧ LeftBehind r' l x ∧
      ((∀ y ∈ l, keyOf y ≠ keyOf x) → num = l.length → R ≠ [] ∧
        ∀ rest q p, R ++ M ++ L = rest ++ [q, p] → (L = [] ↔ cw (keyOf x) (keyOf q) < cw (keyOf p) (keyOf x))) := by
  obtain ⟨r1, hins, hr1⟩ := insert_eq hr hx
  have hsort := isRing_sorted hr
  have hsz := isRing_size hr
  have hsz1 := isRing_size hr1
  by_cases hex : ∃ y ∈ l, keyOf y = keyOf x
  · have hadd := addSorted_of_mem hsort hex
    rw [hadd] at hr1 hsz1
    have hxl : x ∈ l := by
      obtain ⟨y, hy, hyx⟩ := hex
      rw [← hsp y hy hyx]; exact hy
    have hleft : LeftBehind r1 l x := Or.inl ⟨hr1, fun h => by have := h.2 x hxl; omega⟩
    have hself : circ (keyOf x) (keyOf x) = 0 := by
      have : cw (keyOf x) (keyOf x) = 0 := by
        unfold cw; rw [Nat.add_comm, Nat.add_sub_cancel, Nat.mod_self]
      simp [circ, this]
    have hsplit : ∀ {lo hi : List Hex}, l = lo ++ x :: hi →
        (∀ y ∈ lo, keyOf y < keyOf x) ∧ (∀ y ∈ x :: hi, keyOf x ≤ keyOf y) := by
      intro lo hi h
      rw [h, List.pairwise_append, List.pairwise_cons] at hsort
      refine ⟨fun y hy => hsort.2.2 y hy x (by simp), fun y hy => ?_⟩
      rcases List.mem_cons.1 hy with rfl | hy
      · exact Nat.le_refl _
      · exact Nat.le_of_lt (hsort.2.1.1 y hy)
    by_cases h1 : num = 1
    · obtain ⟨lo, hi, hlh⟩ := List.append_of_mem hxl
      refine ⟨r1, [x], [x], hi ++ lo, [], ?_, ⟨lo, x :: hi, hlh, by simp, hsplit hlh⟩, rfl, ?_, ?_, hleft, fun h => absurd rfl (h x hxl)⟩
      · simp [insertSearchRemove, hins, bind, Except.bind, pure, Except.pure, hsz, hsz1, h1]
      · intro y hy z hz
        simp at hy
        subst hy
        rw [hself]; exact Nat.zero_le _
      · simp [h1]
    · have h2 : 2 ≤ l.length := by omega
      obtain ⟨lo, hi, R, M, L, h3, h4, h5, h6, h7, h8, -⟩ := searchAndExpand_eq hr1 hxl h2 num [x]
      refine ⟨r1, L ++ [x] ++ R, x :: R, M, L, ?_, ⟨lo, x :: hi, h3, by simp [h4], hsplit h3⟩, by simp, ?_, ?_, hleft, fun h => absurd rfl (h x hxl)⟩
      · simp [insertSearchRemove, hins, bind, Except.bind, pure, Except.pure, hsz, hsz1, h1, h5]
      · intro y hy z hz
        simp only [List.mem_append, List.mem_singleton] at hy
        rcases hy with (hy | rfl) | hy
        · exact h6 y (by simp [hy]) z hz
        · rw [hself]; exact Nat.zero_le _
        · exact h6 y (by simp [hy]) z hz
      · exact h7 (by simp; omega) (by simp; omega)
  · have hne : ∀ y ∈ l, keyOf y ≠ keyOf x := fun y hy he => hex ⟨y, hy, he⟩
    obtain ⟨lo, hi, hlh, hadd, hlo, hhi⟩ := addSorted_new hsort hne
    rw [hadd] at hr1 hsz1
    have hszne : r1.size ≠ r.size := by
      rw [hsz, hsz1, hlh]; simp
    have h2 : 2 ≤ (lo ++ x :: hi).length := by
      have : l.length ≠ 0 := fun h => hl (List.eq_nil_of_length_eq_zero h)
      rw [hlh, List.length_append] at this
      rw [List.length_append, List.length_cons]; omega
    obtain ⟨lo', hi', R, M, L, h3, h4, h5, h6, h7, h8, h9⟩ := searchAndExpand_eq (x := x) hr1 (by simp) h2 num []
    have hsame : lo' = lo ∧ hi' = hi := by
      have hnd := isRing_nodup hr1
      have hxlo : x ∉ lo := fun h => by have := hlo x h; omega
      have hxlo' : x ∉ lo' := by
        rw [h3, List.nodup_append] at hnd
        intro h
        exact hnd.2.2 x h x (by simp) rfl
      have := List.append_eq_append_iff.mp h3
      rcases this with ⟨as, h, h'⟩ | ⟨as, h, h'⟩
      · cases as with
        | nil => simp at h h'; exact ⟨h, h'.symm⟩
        | cons d as => simp at h'; rw [h] at hxlo'; exact absurd (by simp [h'.1]) hxlo'
      · cases as with
        | nil => simp at h h'; exact ⟨h.symm, h'⟩
        | cons d as => simp at h'; rw [h] at hxlo; exact absurd (by simp [h'.1]) hxlo
    rw [hsame.1, hsame.2] at h4 h9
    obtain ⟨r2, hrem, hleft⟩ := remove_temp hr1
    rw [← hlh] at hleft
    refine ⟨r2, L ++ R, R, M, L, ?_, ⟨lo, hi, hlh, h4, hlo, fun y hy => Nat.le_of_lt (hhi y hy)⟩, rfl, ?_, ?_, hleft, ?_⟩
    · simp only [insertSearchRemove, hins, bind, Except.bind, pure, Except.pure, if_neg hszne, h5, hrem]
      simp
    · intro y hy z hz
      exact h6 y (by simp at hy ⊢; grind) z hz
    · have := h7 (by simp; omega) (by rw [hlh] at hnum; simp at hnum ⊢; omega)
      simpa using this
    · intro _ hnl
      rw [← h4]
      refine h9 ?_
      rw [hnl, hlh]
      simp only [List.length_append, List.length_cons, List.length_nil]
      omega

end FcRetrieval.Ring
