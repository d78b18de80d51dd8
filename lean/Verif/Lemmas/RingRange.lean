import Verif.Lemmas.RingDamaged
/-! Helper lemmas: `GetWithinRange`. -/

set_option linter.unusedSimpArgs false

namespace FcRetrieval.Ring

theorem addSorted_mem {x y : Hex} : ∀ {l : List Hex}, y ∈ l → y ∈ addSorted x l
  | z :: l, h => by
    unfold addSorted
    split
    · simp [h]
    · split
      · exact h
      · rcases List.mem_cons.mp h with rfl | h
        · simp
        · exact List.mem_cons_of_mem _ (addSorted_mem h)

theorem mem_addSorted_self {x : Hex} : ∀ {l : List Hex}, SameSpelling l x → x ∈ addSorted x l
  | [], _ => by simp [addSorted]
  | z :: l, h => by
    unfold addSorted
    split
    · simp
    · split
      · rename_i h1
        have := h z (by simp) h1.symm
        simp [this]
      · exact List.mem_cons_of_mem _ (mem_addSorted_self fun y hy => h y (by simp [hy]))

theorem find_node {r : Ring} {as : List Nat} {l : List Hex} {x : Hex} (hr : IsRingAt r as l) (hx : x ∈ l) :
    ∃ n ∈ as, (r.heap n).val = x ∧ (as.find? fun a => (r.heap a).val = x) = some n := by
  rw [← hr.vals] at hx
  obtain ⟨n, hn, hnx⟩ := List.mem_map.mp hx
  cases hf : as.find? fun a => (r.heap a).val = x with
  | none =>
    have := List.find?_eq_none.mp hf n hn
    simp [hnx] at this
  | some m =>
    have h1 := List.find?_some hf
    simp at h1
    exact ⟨m, List.mem_of_find?_eq_some hf, h1, rfl⟩

theorem ensure_eq {r : Ring} {as : List Nat} {l : List Hex} {x : Hex} (hr : IsRingAt r as l) (hx : validateInput x = true)
    (hsp : SameSpelling l x) : ∃ r1 as1 n, ensure r x = .ok (r1, decide (x ∈ l), some n) ∧
      IsRingAt r1 as1 (addSorted x l) ∧ n ∈ as1 ∧ (r1.heap n).val = x ∧
      ∀ a ∈ as, a ∈ as1 ∧ (r1.heap a).val = (r.heap a).val := by
  by_cases hm : x ∈ l
  · obtain ⟨n, hn, hv, hf⟩ := find_node hr hm
    refine ⟨r, as, n, ?_, ?_, hn, hv, fun a ha => ⟨ha, rfl⟩⟩
    · simp [ensure, get_eq hr hx, hf, bind, Except.bind, pure, Except.pure, hm]
    · rw [addSorted_of_mem hr.sorted ⟨x, hm, rfl⟩]; exact hr
  · obtain ⟨r1, as1, h1, h2, h3⟩ := insert_at hr hx
    obtain ⟨n, hn, hv, hf⟩ := find_node h2 (mem_addSorted_self hsp)
    refine ⟨r1, as1, n, ?_, h2, hn, hv, h3⟩
    have hnone : (as.find? fun a => (r.heap a).val = x) = none := by
      rw [List.find?_eq_none]
      intro a ha he
      simp at he
      exact hm (by rw [← hr.vals, ← he]; exact List.mem_map.mpr ⟨a, ha, rfl⟩)
    simp [ensure, get_eq hr hx, hnone, h1, get_eq h2 hx, hf, bind, Except.bind, pure, Except.pure, hm]

theorem rangeLoop_eq {h : Heap} {t : Nat} {Y : List Nat} : ∀ {X : List Nat} {fuel : Nat},
    Consecutive (Linked h) (X ++ t :: Y) → (∀ a ∈ X, (h a).val ≠ (h t).val) → X.length < fuel →
    rangeLoop h (h t).val fuel (X ++ t :: Y).head? = .ok (X.map fun a => (h a).val)
  | [], fuel + 1, _, _, _ => by
    simp [rangeLoop, deref, bind, Except.bind, pure, Except.pure]
  | a :: X, fuel + 1, hc, hne, hf => by
    have ih := rangeLoop_eq (X := X) (fuel := fuel) (consecutive_tail hc) (fun b hb => hne b (by simp [hb])) (by simpa using hf)
    have hn : (h a).next = (X ++ t :: Y).head? := by
      cases X with
      | nil => exact hc.1.1
      | cons b X => exact hc.1.1
    simp only [List.cons_append, List.head?_cons, rangeLoop, deref, bind, Except.bind, pure, Except.pure,
      if_neg (hne a (by simp)), hn, ih, List.map_cons]

/-- Between two stored identifiers lies the arc. -/
theorem range_split {l : List Hex} {a b : Hex} (hs : l.Pairwise (fun a b => keyOf a < keyOf b)) (ha : a ∈ l) (hb : b ∈ l)
    (hab : keyOf a ≠ keyOf b) :
    ∃ lo hi X Y, l = lo ++ a :: hi ∧ hi ++ lo = X ++ b :: Y ∧ arc (keyOf a) (keyOf b) l = a :: X ++ [b] := by
  obtain ⟨lo, hi, rfl⟩ := List.append_of_mem ha
  rw [List.pairwise_append, List.pairwise_cons] at hs
  obtain ⟨hlo, ⟨hahi, hhi⟩, hcross⟩ := hs
  by_cases hlt : keyOf a < keyOf b
  · have hbhi : b ∈ hi := by
      simp only [List.mem_append, List.mem_cons] at hb
      rcases hb with hb | rfl | hb
      · have := hcross b hb a (by simp); omega
      · omega
      · exact hb
    obtain ⟨X, Y, rfl⟩ := List.append_of_mem hbhi
    rw [List.pairwise_append, List.pairwise_cons] at hhi
    refine ⟨lo, X ++ b :: Y, X, Y ++ lo, rfl, by simp, ?_⟩
    rw [arc, if_pos (by omega)]
    have e1 : lo.filter (fun x => decide (keyOf a ≤ keyOf x ∧ keyOf x ≤ keyOf b)) = [] := by
      rw [List.filter_eq_nil_iff]
      intro y hy
      have := hcross y hy a (by simp)
      simp; omega
    have e2 : X.filter (fun x => decide (keyOf a ≤ keyOf x ∧ keyOf x ≤ keyOf b)) = X := by
      rw [List.filter_eq_self]
      intro y hy
      have h1 := hahi y (by simp [hy])
      have h2 := hhi.2.2 y hy b (by simp)
      simp; omega
    have e3 : Y.filter (fun x => decide (keyOf a ≤ keyOf x ∧ keyOf x ≤ keyOf b)) = [] := by
      rw [List.filter_eq_nil_iff]
      intro y hy
      have h1 := hhi.2.1.1 y hy
      simp; omega
    rw [List.filter_append, e1, List.filter_cons_of_pos (by simp; omega), List.filter_append, e2,
      List.filter_cons_of_pos (by simp; omega), e3]
    simp
  · have hblo : b ∈ lo := by
      simp only [List.mem_append, List.mem_cons] at hb
      rcases hb with hb | rfl | hb
      · exact hb
      · omega
      · have := hahi b hb; omega
    obtain ⟨X, Y, rfl⟩ := List.append_of_mem hblo
    rw [List.pairwise_append, List.pairwise_cons] at hlo
    refine ⟨X ++ b :: Y, hi, hi ++ X, Y, rfl, by simp, ?_⟩
    rw [arc, if_neg (by omega)]
    have e1 : X.filter (fun x => decide (keyOf a ≤ keyOf x)) = [] := by
      rw [List.filter_eq_nil_iff]
      intro y hy
      have := hcross y (by simp [hy]) a (by simp)
      simp; omega
    have e2 : Y.filter (fun x => decide (keyOf a ≤ keyOf x)) = [] := by
      rw [List.filter_eq_nil_iff]
      intro y hy
      have := hcross y (by simp [hy]) a (by simp)
      simp; omega
    have e3 : hi.filter (fun x => decide (keyOf a ≤ keyOf x)) = hi := by
      rw [List.filter_eq_self]
      intro y hy
      have h1 := hahi y hy
      simp; omega
    have f1 : X.filter (fun x => decide (keyOf x ≤ keyOf b)) = X := by
      rw [List.filter_eq_self]
      intro y hy
      have := hlo.2.2 y hy b (by simp)
      simp; omega
    have f2 : Y.filter (fun x => decide (keyOf x ≤ keyOf b)) = [] := by
      rw [List.filter_eq_nil_iff]
      intro y hy
      have := hlo.2.1.1 y hy
      simp; omega
    have f3 : hi.filter (fun x => decide (keyOf x ≤ keyOf b)) = [] := by
      rw [List.filter_eq_nil_iff]
      intro y hy
      have h1 := hahi y hy
      simp; omega
    rw [List.filter_append, List.filter_append, e1, List.filter_cons_of_neg (by simp; omega), e2,
      List.filter_cons_of_pos (by simp), e3, List.filter_append, List.filter_append, f1,
      List.filter_cons_of_pos (by simp), f2, List.filter_cons_of_neg (by simp; omega), f3]
    simp

theorem arc_filter (a b : Nat) (p : Hex → Bool) (l : List Hex) : arc a b (l.filter p) = (arc a b l).filter p := by
  unfold arc
  split
  · rw [List.filter_filter, List.filter_filter]
    congr 1; funext x; exact Bool.and_comm _ _
  · rw [List.filter_append, List.filter_filter, List.filter_filter, List.filter_filter, List.filter_filter]
    congr 1 <;> (congr 1; funext x; exact Bool.and_comm _ _)

theorem addSorted_filter {x : Hex} {l : List Hex} (hs : l.Pairwise (fun a b => keyOf a < keyOf b)) (hsp : SameSpelling l x) :
    (addSorted x l).filter (fun y => decide (y ∈ l)) = l := by
  by_cases hm : x ∈ l
  · rw [addSorted_of_mem hs ⟨x, hm, rfl⟩, List.filter_eq_self]
    simp
  · obtain ⟨lo, hi, rfl, h1, h2, h3⟩ := addSorted_new hs (x := x) (fun y hy he => hm (by rw [← hsp y hy he]; exact hy))
    rw [h1, List.filter_append, List.filter_cons_of_neg (by simpa using hm), List.filter_eq_self.mpr, List.filter_eq_self.mpr]
    · intro y hy; simp [hy]
    · intro y hy; simp [hy]

theorem sameSpelling_add {l : List Hex} {a b : Hex} (h : SameSpelling l b) (hab : keyOf a ≠ keyOf b) :
    SameSpelling (addSorted a l) b := by
  intro y hy he
  rcases mem_addSorted hy with rfl | hy
  · exact absurd he hab
  · exact h y hy he

/-- Dropping a temporary end of the range. -/
theorem dropTemp_eq {r : Ring} {l : List Hex} {x : Hex} (hs : l.Pairwise (fun a b => keyOf a < keyOf b))
    (hsp : SameSpelling l x) (hr : IsRing r (addSorted x l)) :
    ∃ r', dropTemp r x (decide (x ∈ l)) = .ok r' ∧ LeftBehind r' l x := by
  by_cases hm : x ∈ l
  · refine ⟨r, by simp [dropTemp, hm], ?_⟩
    rw [addSorted_of_mem hs ⟨x, hm, rfl⟩] at hr
    exact Or.inl ⟨hr, fun h => by have := h.2 x hm; omega⟩
  · obtain ⟨lo, hi, rfl, h1, h2, h3⟩ := addSorted_new hs (x := x) (fun y hy he => hm (by rw [← hsp y hy he]; exact hy))
    rw [h1] at hr
    obtain ⟨r', h4, h5⟩ := remove_temp hr
    exact ⟨r', by simp only [dropTemp, decide_eq_false hm]; simpa using h4, h5⟩

theorem getWithinRange_eq {r : Ring} {l : List Hex} {a b : Hex} (hr : IsRing r l) (ha : validateInput a = true)
    (hb : validateInput b = true) (hspa : SameSpelling l a) (hspb : SameSpelling l b) (hab : keyOf a ≠ keyOf b) :
    ∃ r', getWithinRange r a b = .ok (r', .val (arc (keyOf a) (keyOf b) l)) ∧
      (¬ (2 ≤ (addSorted a l).length ∧ ∀ y ∈ addSorted a l, keyOf b < keyOf y) → LeftBehind r' l a) := by
  obtain ⟨as, hr⟩ := hr
  obtain ⟨r1, as1, s, e1, hr1, hs1, hv1, _⟩ := ensure_eq hr ha hspa
  have hspb1 := sameSpelling_add hspb hab
  obtain ⟨r2, as2, t, e2, hr2, ht2, hv2, hkeep⟩ := ensure_eq hr1 hb hspb1
  obtain ⟨hs2, hsv⟩ := hkeep s hs1
  rw [hv1] at hsv
  have hal1 : a ∈ addSorted a l := mem_addSorted_self hspa
  have hal2 : a ∈ addSorted b (addSorted a l) := addSorted_mem hal1
  have hbl2 : b ∈ addSorted b (addSorted a l) := mem_addSorted_self hspb1
  have hmb : decide (b ∈ addSorted a l) = decide (b ∈ l) := by
    congr 1
    apply propext
    constructor
    · intro h
      rcases mem_addSorted h with h | h
      · subst h; exact absurd rfl hab
      · exact h
    · exact addSorted_mem
  rw [hmb] at e2
  obtain ⟨lo, hi, X, Y, hl2, hXY, harc⟩ := range_split hr2.sorted hal2 hbl2 hab
  -- the same split on nodes
  obtain ⟨los, his, hsplit⟩ := List.append_of_mem hs2
  have hvals : (los.map fun a => (r2.heap a).val) = lo ∧ (his.map fun a => (r2.heap a).val) = hi := by
    have h1 := hr2.vals
    have hnd := isRing_nodup ⟨as2, hr2⟩
    rw [hsplit, List.map_append, List.map_cons, hsv, hl2] at h1
    rw [hl2, List.nodup_append] at hnd
    have h2 := List.append_eq_append_iff.mp h1
    rcases h2 with ⟨zs, h, h'⟩ | ⟨zs, h, h'⟩
    · cases zs with
      | nil => simp at h h'; exact ⟨h.symm, h'⟩
      | cons d zs =>
        simp at h'
        rw [h] at hnd
        exact absurd rfl (hnd.2.2 a (by simp [h'.1]) a (by simp))
    · cases zs with
      | nil => simp at h h'; exact ⟨h, h'.symm⟩
      | cons d zs =>
        simp at h'
        have hm : a ∈ hi := by
          have : zs ++ a :: hi.drop 0 = zs ++ a :: hi := by simp
          rw [← h1] at hl2
          have hn2 := isRing_nodup ⟨as2, hr2⟩
          rw [hl2, List.nodup_append] at hn2
          rw [h] at hn2
          exact absurd rfl (hn2.2.2 a (by simp [h'.1]) a (by simp))
        have := hnd.2.1
        rw [List.nodup_cons] at this
        exact absurd hm this.1
  rw [hsplit] at hr2
  have h2len : 2 ≤ (los ++ s :: his).length := by
    rw [← hsplit]
    have hst : s ≠ t := fun h => by
      rw [h, hv2] at hsv
      exact hab (by rw [hsv])
    match as2, hs2, ht2 with
    | [c], h1, h2 => simp at h1 h2; exact absurd (h1.trans h2.symm) hst
    | _ :: _ :: _, _, _ => simp
  obtain ⟨_, c, _, hc, _, hlinkc⟩ := hr2.neighbours h2len
  have hmapXY : (his ++ los).map (fun a => (r2.heap a).val) = X ++ b :: Y := by
    rw [List.map_append, hvals.1, hvals.2, hXY]
  obtain ⟨Xs, Zs, hXZ, hXs, hZs⟩ := List.map_eq_append_iff.mp hmapXY
  obtain ⟨t', Ys, rfl, ht', _⟩ := List.map_eq_cons_iff.mp hZs
  have htt : t' = t := by
    refine hr2.val_inj ?_ (by rw [← hsplit]; exact ht2) (by rw [ht', hv2])
    have : t' ∈ his ++ los := by rw [hXZ]; simp
    simp at this ⊢; grind
  subst htt
  have hloop := rangeLoop_eq (h := r2.heap) (t := t') (Y := Ys) (X := Xs) (fuel := r2.cap + 1)
    (by rw [← hXZ]; exact hr2.around) (by
      intro x hx he
      have hnd := hr2.nodup
      have hxm : x ∈ his ++ los := by rw [hXZ]; simp [hx]
      have htm : t' ∈ his ++ los := by rw [hXZ]; simp
      have := hr2.val_inj (a := x) (b := t') (by simp at hxm ⊢; grind) (by simp at htm ⊢; grind) he
      subst this
      have hnd2 : (his ++ los).Nodup := by
        have hp : (his ++ los).Perm (los ++ his) := List.perm_append_comm
        rw [hp.nodup_iff]
        rw [List.nodup_append, List.nodup_cons] at hnd
        rw [List.nodup_append]
        exact ⟨hnd.1, hnd.2.1.2, fun p hp q hq => hnd.2.2 p hp q (by simp [hq])⟩
      rw [hXZ, List.nodup_append] at hnd2
      exact hnd2.2.2 x hx x (by simp) rfl) (by
      have h1 := hr2.length_le_cap
      have h2 : (his ++ los).length = Xs.length + (Ys.length + 1) := by rw [hXZ]; simp
      simp at h1 h2; omega)
  rw [hXs, ← hXZ, hc, ← hlinkc.1] at hloop
  rw [hv2] at hloop
  -- the answer
  have hnodup := isRing_nodup ⟨_, hr2⟩
  have hXmem : ∀ y ∈ X, y ∈ l := by
    intro y hy
    have hym : y ∈ hi ++ lo := by rw [hXY]; simp [hy]
    rw [hl2] at hnodup
    have hperm : (hi ++ lo).Perm (lo ++ hi) := List.perm_append_comm
    have hya : y ≠ a := by
      rintro rfl
      rw [List.nodup_append, List.nodup_cons] at hnodup
      simp only [List.mem_append] at hym
      rcases hym with h | h
      · exact hnodup.2.1.1 h
      · exact hnodup.2.2 y h y (by simp) rfl
    have hyb : y ≠ b := by
      rintro rfl
      have hnd2 : (hi ++ lo).Nodup := by
        rw [hperm.nodup_iff]
        rw [List.nodup_append, List.nodup_cons] at hnodup
        rw [List.nodup_append]
        exact ⟨hnodup.1, hnodup.2.1.2, fun p hp q hq => hnodup.2.2 p hp q (by simp [hq])⟩
      rw [hXY, List.nodup_append] at hnd2
      exact hnd2.2.2 y hy y (by simp) rfl
    have hy2 : y ∈ addSorted b (addSorted a l) := by
      rw [hl2]; simp at hym ⊢; grind
    rcases mem_addSorted hy2 with h | h
    · exact absurd h hyb
    · rcases mem_addSorted h with h | h
      · exact absurd h hya
      · exact h
  have hfl : (addSorted b (addSorted a l)).filter (fun y => decide (y ∈ l)) = l := by
    have g1 := addSorted_filter hr.sorted hspa
    have g2 := addSorted_filter hr1.sorted hspb1
    have g3 : (addSorted b (addSorted a l)).filter (fun y => decide (y ∈ l)) =
        ((addSorted b (addSorted a l)).filter (fun y => decide (y ∈ addSorted a l))).filter (fun y => decide (y ∈ l)) := by
      rw [List.filter_filter]
      congr 1
      funext y
      by_cases h : y ∈ l
      · simp [h, addSorted_mem]
      · simp [h]
    rw [g3, g2, g1]
  have hans : arc (keyOf a) (keyOf b) l =
      (if decide (a ∈ l) = true then [a] else []) ++ X ++ (if decide (b ∈ l) = true then [b] else []) := by
    have h1 := arc_filter (keyOf a) (keyOf b) (fun y => decide (y ∈ l)) (addSorted b (addSorted a l))
    rw [hfl, harc] at h1
    have h2 : X.filter (fun y => decide (y ∈ l)) = X := by
      rw [List.filter_eq_self]
      intro y hy; simpa using hXmem y hy
    rw [h1, List.cons_append, List.filter_cons, List.filter_append, h2]
    by_cases h3 : a ∈ l <;> by_cases h4 : b ∈ l <;> simp [List.filter_cons, h3, h4]
  obtain ⟨r3, hd1, hleft1⟩ := dropTemp_eq hr1.sorted hspb1 ⟨_, hr2⟩
  rw [hmb] at hd1
  have hfin : ∃ r4, dropTemp r3 a (decide (a ∈ l)) = .ok r4 ∧
      (¬ (2 ≤ (addSorted a l).length ∧ ∀ y ∈ addSorted a l, keyOf b < keyOf y) → LeftBehind r4 l a) := by
    rcases hleft1 with ⟨hok, _⟩ | ⟨hbad, _, _, as3, hw⟩
    · obtain ⟨r4, h1, h2⟩ := dropTemp_eq hr.sorted hspa hok
      exact ⟨r4, h1, fun _ => h2⟩
    · by_cases hm : a ∈ l
      · exact ⟨r3, by simp [dropTemp, hm], fun h => absurd hbad h⟩
      · obtain ⟨r4, h1⟩ := remove_ok (x := a) hw
        exact ⟨r4, by simp [dropTemp, hm, h1], fun h => absurd hbad h⟩
  obtain ⟨r4, hd2, hleft2⟩ := hfin
  refine ⟨r4, ?_, hleft2⟩
  simp only [getWithinRange, ha, hb, e1, e2, bind, Except.bind, pure, Except.pure, hv2, hloop, hd1, hd2]
  rw [if_neg (by simp), hans]

end FcRetrieval.Ring
