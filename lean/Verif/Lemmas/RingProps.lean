import Verif.Lemmas.RingRange
/-! Helper lemmas used by the ring properties. -/

set_option linter.unusedSimpArgs false

namespace FcRetrieval.Ring

theorem isRing_create : IsRing createRing [] := by
  refine ⟨[], ?_⟩
  constructor <;> simp [createRing, Consecutive]

/-- A history of valid insertions, step by step. -/
theorem insertAll_eq : ∀ {xs : List Hex} {r : Ring} {l : List Hex}, IsRing r l →
    ∃ r', insertAll r xs = .ok r' ∧
      IsRing r' (xs.foldl (fun l x => if validateInput x then addSorted x l else l) l)
  | [], r, l, hr => ⟨r, rfl, hr⟩
  | x :: xs, r, l, hr => by
    by_cases hx : validateInput x = true
    · obtain ⟨r1, h1, h2⟩ := insert_eq hr hx
      obtain ⟨r2, h3, h4⟩ := insertAll_eq (xs := xs) h2
      refine ⟨r2, ?_, ?_⟩
      · simp [insertAll, h1, bind, Except.bind, h3]
      · simpa [hx] using h4
    · have hx' : validateInput x = false := by simpa using hx
      obtain ⟨r2, h3, h4⟩ := insertAll_eq (xs := xs) hr
      refine ⟨r2, ?_, ?_⟩
      · simp [insertAll, insert_invalid hx', bind, Except.bind, h3]
      · simpa [hx'] using h4

theorem key_mem_addSorted {x : Hex} : ∀ (l : List Hex), ∃ y ∈ addSorted x l, keyOf y = keyOf x
  | [] => ⟨x, by simp [addSorted], rfl⟩
  | z :: l => by
    unfold addSorted
    split
    · exact ⟨x, by simp, rfl⟩
    · split
      · rename_i h; exact ⟨z, by simp, h.symm⟩
      · obtain ⟨y, hy, hk⟩ := key_mem_addSorted (x := x) l
        exact ⟨y, List.mem_cons_of_mem _ hy, hk⟩

theorem foldl_added : ∀ (xs l : List Hex),
    (∀ y ∈ xs.foldl (fun l x => if validateInput x then addSorted x l else l) l, y ∈ l ∨ (y ∈ xs ∧ validateInput y = true)) ∧
    (∀ y ∈ l, y ∈ xs.foldl (fun l x => if validateInput x then addSorted x l else l) l) ∧
    (∀ x ∈ xs, validateInput x = true →
      ∃ y ∈ xs.foldl (fun l x => if validateInput x then addSorted x l else l) l, keyOf y = keyOf x)
  | [], l => by simp
  | x :: xs, l => by
    simp only [List.foldl_cons]
    obtain ⟨h1, h2, h3⟩ := foldl_added xs (if validateInput x then addSorted x l else l)
    refine ⟨?_, ?_, ?_⟩
    · intro y hy
      rcases h1 y hy with h | ⟨h, h'⟩
      · by_cases hx : validateInput x = true
        · simp only [hx, if_true] at h
          rcases mem_addSorted h with rfl | h
          · exact Or.inr ⟨by simp, hx⟩
          · exact Or.inl h
        · simp [hx] at h; exact Or.inl h
      · exact Or.inr ⟨by simp [h], h'⟩
    · intro y hy
      apply h2
      split
      · exact addSorted_mem hy
      · exact hy
    · intro z hz hv
      rcases List.mem_cons.mp hz with rfl | hz
      · simp only [hv, if_true] at h2 ⊢
        obtain ⟨y, hy, hk⟩ := key_mem_addSorted (x := z) l
        exact ⟨y, h2 y hy, hk⟩
      · exact h3 z hz hv

theorem rotate_again {α : Type} {lo hi A B : List α} (h : hi ++ lo = A ++ B) :
    ∃ pre post, lo ++ hi = pre ++ post ∧ post ++ pre = B ++ A := by
  rcases List.append_eq_append_iff.mp h with ⟨C, h1, h2⟩ | ⟨C, h1, h2⟩
  · exact ⟨C, B ++ hi, by simp [h2], by simp [h1]⟩
  · exact ⟨lo ++ A, C, by simp [h1], by simp [h2]⟩

/-- `GetClosest` without exclusion, at most as many as stored. -/
theorem getClosest_eq {r : Ring} {l : List Hex} {x : Hex} {num : Int} (hr : IsRing r l) (hx : validateInput x = true)
    (hsp : SameSpelling l x) (hn1 : 1 ≤ num) (hnum : num ≤ l.length) :
    ∃ r' res rest, closestBody r x num = .ok (r', res) ∧
      (∃ pre post, l = pre ++ post ∧ post ++ pre = res ++ rest) ∧
      (∀ y ∈ res, ∀ z ∈ rest, circ (keyOf x) (keyOf y) ≤ circ (keyOf x) (keyOf z)) ∧
      (res.length : Int) = num ∧ LeftBehind r' l x := by
  have hl : l ≠ [] := by rintro rfl; simp at hnum; omega
  obtain ⟨r', res, R, M, L, h1, ⟨lo, hi, h2, h3, _⟩, h4, h5, h6, h7, -⟩ := insertSearchRemove_eq hr hx hsp hl hnum hn1
  refine ⟨r', res, M, ?_, ?_, h5, h6, h7⟩
  · have hs := isRing_size hr
    simp only [closestBody, hs]
    rw [if_neg (by omega)]
    exact h1
  · obtain ⟨pre, post, h8, h9⟩ := rotate_again h3
    refine ⟨pre, post, by rw [h2, h8], ?_⟩
    rw [h9, h4]; simp

/-- `GetClosest` asked for more than is stored. -/
theorem closestBody_more {r : Ring} {y : Hex} {l : List Hex} {x : Hex} {num : Int} (hr : IsRing r (y :: l))
    (hnum : num > (l.length + 1 : Nat)) :
    closestBody r x num = .ok (r, (if y = x then [y] else []) ++ l) := by
  have hs := isRing_size hr
  have hd := dump_eq hr
  simp at hs
  unfold dump at hd
  cases hh : r.head with
  | none => simp [hh] at hd
  | some h =>
    simp only [hh, bind, Except.bind, pure, Except.pure] at hd
    cases hw : walk r.heap (r.heap h).val (r.cap + 1) (r.heap h).next with
    | error e => simp [hw] at hd
    | ok rest =>
      simp [hw] at hd
      rw [hd.1] at hw
      simp only [closestBody, hs, if_pos hnum, hh, deref, bind, Except.bind, pure, Except.pure, hw, hd.1, hd.2]

theorem getClosest_noExclude {r : Ring} {l : List Hex} {x : Hex} {num : Int} (hr : IsRing r l)
    (hx : validateInput x = true) (hl : l ≠ []) (hn : num ≠ 0) {r' : Ring} {res : List Hex}
    (h : closestBody r x num = .ok (r', res)) : getClosest r x num [] = .ok (r', .val res) := by
  have hs := isRing_size hr
  have hsz : r.size ≠ 0 := by
    intro h0
    rw [hs] at h0
    exact hl (List.eq_nil_of_length_eq_zero h0)
  simp [getClosest, hx, hn, hsz, h, bind, Except.bind, pure, Except.pure]

theorem addSorted_erase {e : Hex} {l : List Hex} (hs : l.Pairwise (fun a b => keyOf a < keyOf b)) (he : e ∈ l) :
    addSorted e (l.erase e) = l := by
  obtain ⟨lo, hi, rfl⟩ := List.append_of_mem he
  rw [List.pairwise_append, List.pairwise_cons] at hs
  have : (lo ++ e :: hi).erase e = lo ++ hi := by
    rw [List.erase_append_right]
    · simp
    · intro hm
      have := hs.2.2 e hm e (by simp)
      omega
  rw [this]
  exact addSorted_split (fun y hy => hs.2.2 y hy e (by simp)) (fun y hy => hs.2.1.1 y hy)

/-- `GetClosest` with exclusion, when the exclusion is a clean removal. -/
theorem getClosest_exclude {r : Ring} {l : List Hex} {x e : Hex} {num : Int} (hr : IsRing r l)
    (hx : validateInput x = true) (he : validateInput e = true) (hlen : 2 ≤ l.length) (hclean : CleanRemove l e)
    (hn : num ≠ 0) {r2 : Ring} {res : List Hex} :
    (∀ r1, IsRing r1 (l.erase e) → remove r e = .ok r1 → closestBody r1 x num = .ok (r2, res)) →
    (IsRing r2 (l.erase e) → ∃ r3, getClosest r x num e = .ok (r3, .val res) ∧ IsRing r3 l) ∧
    ((∃ as, Walkable r2 as) → ∃ r3, getClosest r x num e = .ok (r3, .val res)) := by
  intro hbody
  obtain ⟨r1, h1, h2⟩ := remove_clean hr he hclean
  have hb := hbody r1 h2 h1
  have hs := isRing_size hr
  have hs1 := isRing_size h2
  have hsz0 : ¬ (r.size = 0) := by omega
  have hsz1 : ¬ (r.size = 1) := by omega
  have hne : e ≠ [] := by rintro rfl; simp [validateInput] at he
  have hguard1 : ¬ (validateInput x = false ∨ e ≠ [] ∧ validateInput e = false) := by simp [hx, he]
  have hguard2 : ¬ (num = 0 ∨ r.size = 0 ∨ e ≠ [] ∧ r.size = 1) := by simp [hn, hsz0, hsz1]
  by_cases hm : e ∈ l
  · have hdiff : r1.size ≠ r.size := by
      rw [hs, hs1, List.length_erase_of_mem hm]; omega
    constructor
    · intro h3
      obtain ⟨r3, h4, h5⟩ := insert_eq h3 he
      rw [addSorted_erase (isRing_sorted hr) hm] at h5
      refine ⟨r3, ?_, h5⟩
      simp only [getClosest, if_neg hguard1, if_neg hguard2, if_pos hne, bind, Except.bind, pure, Except.pure, h1, hb, h4,
        if_pos hdiff]
    · rintro ⟨as, h3⟩
      obtain ⟨r3, h4⟩ := insert_ok (x := e) h3
      refine ⟨r3, ?_⟩
      simp only [getClosest, if_neg hguard1, if_neg hguard2, if_pos hne, bind, Except.bind, pure, Except.pure, h1, hb, h4,
        if_pos hdiff]
  · have hsame : ¬ r1.size ≠ r.size := by
      rw [hs, hs1, List.erase_of_not_mem hm]; simp
    have heq : getClosest r x num e = .ok (r2, .val res) := by
      simp only [getClosest, if_neg hguard1, if_neg hguard2, if_pos hne, bind, Except.bind, pure, Except.pure, h1, hb,
        if_neg hsame]
    constructor
    · intro h3
      rw [List.erase_of_not_mem hm] at h3
      exact ⟨r2, heq, h3⟩
    · intro _
      exact ⟨r2, heq⟩

/-- Telescoping sum of the stored distances along a chain of nodes. -/
theorem sum_links {h : Heap} : ∀ {a : Nat} {rest : List Nat} {z : Nat}, Consecutive (Linked h) (a :: rest) →
    (∀ b ∈ a :: rest, (h b).key < 2 ^ 256) → (a :: rest).Pairwise (fun b c => (h b).key < (h c).key) →
    (a :: rest).getLast? = some z →
    (((a :: rest).dropLast.map fun b => ((h b).distNext).getD 0).sum + (h a).key = (h z).key)
  | a, [], z, _, _, _, hz => by
    simp at hz; subst hz; simp
  | a, b :: rest, z, hc, hk, hs, hz => by
    rw [List.getLast?_cons_cons] at hz
    have ih := sum_links (consecutive_tail hc) (fun c hcm => hk c (List.mem_cons_of_mem _ hcm)) (List.pairwise_cons.mp hs).2 hz
    rw [List.dropLast_cons_cons, List.map_cons, List.sum_cons, hc.1.2.2.1]
    have hab : (h a).key < (h b).key := (List.pairwise_cons.mp hs).1 b (by simp)
    rw [cw_eq (hk a (by simp)) (hk b (by simp)), if_pos (by omega)]
    simp only [Option.getD_some]
    omega

theorem sum_last {f : Nat → Nat} {l : List Nat} {z : Nat} (hz : l.getLast? = some z) :
    (l.map f).sum = (l.dropLast.map f).sum + f z := by
  have hne : l ≠ [] := by rintro rfl; simp at hz
  rw [List.getLast?_eq_some_getLast hne] at hz
  simp only [Option.some.injEq] at hz
  have hsplit : l = l.dropLast ++ [z] := by rw [← hz, List.dropLast_concat_getLast]
  have h2 : (l.map f).sum = ((l.dropLast ++ [z]).map f).sum := by rw [← hsplit]
  rw [h2]
  simp

theorem once_round {N s a z d t : Nat} (h : s + a = z) (hz : z < N) (ht : t = s + d) (hd : d = a + N - z) : t = N := by
  omega

end FcRetrieval.Ring
