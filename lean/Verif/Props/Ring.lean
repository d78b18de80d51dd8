import Verif.Lemmas.RingProps
/-!
# Properties of the DHT ring: C01–C07, C66

`IsRing r l` (see `Spec/Ring.lean`) says: `r` is a well-formed ring that holds exactly the identifiers `l`, in
ascending order, all links and stored distances right.  Every history of `Insert` calls ends in such a ring (C01).
-/

namespace FcRetrieval.Ring

/-! Concrete identifiers for the examples: `1111…`, `2222…`, … -/

/-- The identifier made of 64 times the same digit. -/
def rep (c : Char) : Hex := List.replicate 64 c

/-- A concrete ring holding `1111…`, `3333…`, `5555…`, `7777…`. -/
theorem exampleRing : ∃ r, insertAll createRing [rep '5', rep '1', rep '7', rep '3', rep '5'] = .ok r ∧
    IsRing r [rep '1', rep '3', rep '5', rep '7'] := by
  obtain ⟨r, h1, h2⟩ := insertAll_eq (xs := [rep '5', rep '1', rep '7', rep '3', rep '5']) isRing_create
  refine ⟨r, h1, ?_⟩
  have e : [rep '5', rep '1', rep '7', rep '3', rep '5'].foldl
      (fun l x => if validateInput x then addSorted x l else l) [] = [rep '1', rep '3', rep '5', rep '7'] := by
    decide +kernel
  rwa [e] at h2

/-! ## C01 -/

theorem digitVal_isSome_iff (c : Char) : (digitVal c).isSome = true ↔ c ∈ hexDigits := by
  have key : ∀ n : Fin 128, ((digitVal (Char.ofNat n)).isSome = true ↔ Char.ofNat n ∈ hexDigits) := by decide +kernel
  by_cases h : c.toNat < 128
  · have := key ⟨c.toNat, h⟩
    simpa using this
  · have h1 : digitVal c = none := by
      have e : ∀ d : Char, c ≤ d → d.toNat < 128 → False := by
        intro d hcd hd
        have : c.toNat ≤ d.toNat := hcd
        omega
      unfold digitVal
      rw [if_neg (fun hc => e _ hc.2 (by decide)), if_neg (fun hc => e _ hc.2 (by decide)), if_neg (fun hc => e _ hc.2 (by decide))]
    have h2 : c ∉ hexDigits := by
      intro hc
      have hall : ∀ d ∈ hexDigits, d.toNat < 128 := by decide +kernel
      exact h (hall c hc)
    simp [h1, h2]

theorem digitVal_value (c : Char) (h : c ∈ hexDigits) : digitVal c = some (hexDigit c) := by
  have hall : ∀ d ∈ hexDigits, digitVal d = some (hexDigit d) := by decide +kernel
  exact hall c h

/-- **C01**, what "valid" means in all ring theorems: 64 hexadecimal digits, upper or lower case. -/
theorem C01_valid_meaning (x : Hex) : validateInput x = true ↔ x.length = 64 ∧ ∀ c ∈ x, c ∈ hexDigits := by
  unfold validateInput
  simp only [Bool.and_eq_true, beq_iff_eq, List.all_eq_true, digitVal_isSome_iff]

/-- **C01**, what "numeric value" means in all ring theorems: the number the digits spell. -/
theorem C01_value_meaning (x : Hex) (hx : validateInput x = true) : keyOf x = hexNum x := by
  have hd := ((C01_valid_meaning x).1 hx).2
  have main : ∀ (l : List Char) (acc : Nat), (∀ c ∈ l, c ∈ hexDigits) →
      l.foldl (fun acc c => 16 * acc + (digitVal c).getD 0) acc = acc * 16 ^ l.length + hexNum l := by
    intro l
    induction l with
    | nil => intro acc _; simp [hexNum]
    | cons c cs ih =>
      intro acc h
      rw [List.foldl_cons, ih _ (fun d hd => h d (by simp [hd])), digitVal_value c (h c (by simp))]
      simp only [Option.getD_some, hexNum, List.length_cons, Nat.pow_succ, Nat.add_mul]
      rw [← Nat.add_assoc]
      congr 2
      rw [Nat.mul_comm 16 acc, Nat.mul_assoc, Nat.mul_comm 16]
  have := main x 0 hd
  simpa [keyOf] using this

/-- **C01.** Starting from `CreateRing`, any history of `Insert` calls returns normally and ends in a well-formed
ring holding exactly the valid identifiers inserted, one per numeric value; `Size` is their number and following
`next` from the head lists them in ascending order. -/
theorem C01_insert_history (xs : List Hex) :
    ∃ r l, insertAll createRing xs = .ok r ∧ IsRing r l ∧
      (∀ y ∈ l, y ∈ xs ∧ validateInput y = true) ∧
      (∀ x ∈ xs, validateInput x = true → ∃ y ∈ l, keyOf y = keyOf x) ∧
      l.Pairwise (fun a b => keyOf a < keyOf b) ∧
      r.getSize = l.length ∧ dump r = .ok l := by
  obtain ⟨r, h1, h2⟩ := insertAll_eq (xs := xs) isRing_create
  obtain ⟨h3, _, h5⟩ := foldl_added xs []
  refine ⟨r, _, h1, h2, ?_, h5, isRing_sorted h2, isRing_size h2, dump_eq h2⟩
  intro y hy
  simpa using h3 y hy

/-- **C01**, one step: `Insert` puts a valid identifier at its place, keeps everything else, and ignores an
identifier whose value is stored already. -/
theorem C01_insert_step {r : Ring} {l : List Hex} {x : Hex} (hr : IsRing r l) (hx : validateInput x = true) :
    ∃ r', insert r x = .ok r' ∧
      ((∃ lo hi, l = lo ++ hi ∧ IsRing r' (lo ++ x :: hi) ∧ (∀ y ∈ l, keyOf y ≠ keyOf x)) ∨
       (IsRing r' l ∧ ∃ y ∈ l, keyOf y = keyOf x)) := by
  obtain ⟨r', h1, h2⟩ := insert_eq hr hx
  refine ⟨r', h1, ?_⟩
  by_cases hex : ∃ y ∈ l, keyOf y = keyOf x
  · rw [addSorted_of_mem (isRing_sorted hr) hex] at h2
    exact Or.inr ⟨h2, hex⟩
  · have hne : ∀ y ∈ l, keyOf y ≠ keyOf x := fun y hy he => hex ⟨y, hy, he⟩
    obtain ⟨lo, hi, h3, h4, _, _⟩ := addSorted_new (isRing_sorted hr) hne
    rw [h4] at h2
    exact Or.inl ⟨lo, hi, h3, h2, hne⟩

/-- **C01**, invalid strings: nothing happens. -/
theorem C01_insert_invalid {r : Ring} {x : Hex} (hx : validateInput x = false) : insert r x = .ok r :=
  insert_invalid hx

example : ∃ r, insertAll createRing [rep '5', rep '1', rep '7', rep '3', rep '5'] = .ok r ∧
    r.getSize = 4 ∧ dump r = .ok [rep '1', rep '3', rep '5', rep '7'] := by
  obtain ⟨r, h1, h2⟩ := exampleRing
  exact ⟨r, h1, isRing_size h2, dump_eq h2⟩
example : validateInput (rep 'a') = true ∧ validateInput (rep 'g') = false ∧ validateInput ['1'] = false := by
  decide +kernel

/-! ## C02 -/

/-- **C02 (partial).** `Remove(x)` removes exactly `x` and does nothing when `x` is not stored, *provided* the ring
does not hold exactly one other identifier, and `x` is not the smallest of three or more.
Missing: these two cases, where the code does something else (`C02_remove_refuted`, `C02_smallest_stays`,
`C02_single_lost`). -/
theorem C02_remove_partial {r : Ring} {l : List Hex} {x : Hex} (hr : IsRing r l) (hx : validateInput x = true)
    (h1 : l.length = 1 → l = [x]) (h3 : 3 ≤ l.length → l.head? ≠ some x) :
    ∃ r', remove r x = .ok r' ∧ IsRing r' (l.erase x) ∧ x ∉ l.erase x ∧
      r'.getSize = (if x ∈ l then r.getSize - 1 else r.getSize) ∧ dump r' = .ok (l.erase x) := by
  obtain ⟨r', h4, h5⟩ := remove_clean hr hx ⟨h1, h3⟩
  refine ⟨r', h4, h5, ?_, ?_, dump_eq h5⟩
  · exact fun hm => ((isRing_nodup hr).mem_erase_iff.mp hm).1 rfl
  · have ha := isRing_size hr
    have hb := isRing_size h5
    simp only [Ring.getSize, ha, hb]
    split
    · rename_i hm; exact List.length_erase_of_mem hm
    · rename_i hm; rw [List.erase_of_not_mem hm]

/-- **C02.** An invalid argument changes nothing. -/
theorem C02_remove_invalid {r : Ring} {x : Hex} (hx : validateInput x = false) : remove r x = .ok r := remove_invalid hx

/-- What the code does instead (1): the smallest of three or more identifiers stays reachable, although `Size` goes
down. -/
theorem C02_smallest_stays {r : Ring} {y : Hex} {l : List Hex} (hr : IsRing r (y :: l)) (hl : 2 ≤ l.length) :
    ∃ r', remove r y = .ok r' ∧ r'.getSize = l.length ∧ dump r' = .ok (l ++ [y]) := by
  obtain ⟨r', h1, h2, h3, _⟩ := remove_head_big hr hl
  exact ⟨r', h1, h2, h3⟩

/-- What the code does instead (2): removing any valid identifier from a ring of one empties the ring. -/
theorem C02_single_lost {r : Ring} {y x : Hex} (hr : IsRing r [y]) (hx : validateInput x = true) :
    ∃ r', remove r x = .ok r' ∧ dump r' = .ok [] := by
  obtain ⟨r', h1, h2⟩ := remove_one hr hx
  exact ⟨r', h1, dump_eq h2⟩

/-- **C02 (refuted).** The full property does not hold of the code. -/
theorem C02_remove_refuted : ¬ ∀ (r : Ring) (l : List Hex) (x : Hex), IsRing r l → validateInput x = true →
    ∃ r', remove r x = .ok r' ∧ dump r' = .ok (l.erase x) := by
  intro h
  obtain ⟨r, _, hr⟩ := exampleRing
  obtain ⟨r', h1, h2⟩ := h r _ (rep '1') hr (by decide +kernel)
  obtain ⟨r'', h3, _, h4⟩ := C02_smallest_stays hr (by simp)
  rw [h1] at h3
  obtain rfl : r' = r'' := by simpa using h3
  rw [h2] at h4
  revert h4
  decide +kernel

example : ∃ r r', IsRing r [rep '1', rep '3', rep '5', rep '7'] ∧ remove r (rep '3') = .ok r' ∧
    dump r' = .ok [rep '1', rep '5', rep '7'] := by
  obtain ⟨r, _, hr⟩ := exampleRing
  obtain ⟨r', h1, _, _, _, h2⟩ := C02_remove_partial (x := rep '3') hr (by decide +kernel) (by simp) (by decide +kernel)
  refine ⟨r, r', hr, h1, ?_⟩
  rw [h2]; decide +kernel

/-! ## C03 -/

/-- **C03.** When at least `num ≥ 1` identifiers are stored, `GetClosest(x, num, "")` returns exactly `num` distinct
stored identifiers, each at least as near to `x` along the ring as every stored identifier not returned, and lists
them in clockwise order: the answer is a contiguous stretch of the ring.  `SameSpelling` excludes only asking with an
upper-case spelling of a stored lower-case identifier (or vice versa). -/
theorem C03_getClosest_nearest {r : Ring} {l : List Hex} {x : Hex} {num : Int} (hr : IsRing r l)
    (hx : validateInput x = true) (hsp : SameSpelling l x) (hn1 : 1 ≤ num) (hnum : num ≤ l.length) :
    ∃ r' res, getClosest r x num [] = .ok (r', .val res) ∧
      (res.length : Int) = num ∧ res.Nodup ∧ (∀ y ∈ res, y ∈ l) ∧
      (∀ y ∈ res, ∀ z ∈ l, z ∉ res → circ (keyOf x) (keyOf y) ≤ circ (keyOf x) (keyOf z)) ∧
      (∃ pre post rest, l = pre ++ post ∧ post ++ pre = res ++ rest) := by
  obtain ⟨r', res, rest, h1, ⟨pre, post, h2, h3⟩, h4, h5, _⟩ := getClosest_eq hr hx hsp hn1 hnum
  have hl : l ≠ [] := by rintro rfl; simp at hnum; omega
  have hperm : (res ++ rest).Perm l := by
    rw [← h3, h2]; exact List.perm_append_comm
  refine ⟨r', res, getClosest_noExclude hr hx hl (by omega) h1, h5, ?_, ?_, ?_, pre, post, rest, h2, h3⟩
  · have := hperm.nodup_iff.mpr (isRing_nodup hr)
    exact (List.nodup_append.mp this).1
  · intro y hy
    exact hperm.mem_iff.mp (by simp [hy])
  · intro y hy z hz hzn
    have := hperm.mem_iff.mpr hz
    simp only [List.mem_append] at this
    rcases this with h | h
    · exact absurd h hzn
    · exact h4 y hy z h

/-- A target that is stored is always part of the answer. -/
theorem C03_target_included {r : Ring} {l : List Hex} {x : Hex} {num : Int} (hr : IsRing r l) (hx : x ∈ l)
    (hn1 : 1 ≤ num) (hnum : num ≤ l.length) :
    ∃ r' res, getClosest r x num [] = .ok (r', .val res) ∧ x ∈ res := by
  have hv := isRing_valid hr x hx
  have hs := isRing_sorted hr
  have hsp : SameSpelling l x := by
    intro y hy he
    obtain ⟨i, hi, rfl⟩ := List.getElem_of_mem hy
    obtain ⟨j, hj, rfl⟩ := List.getElem_of_mem hx
    have hp := List.pairwise_iff_getElem.mp hs
    rcases Nat.lt_trichotomy i j with hij | hij | hij
    · have := hp i j hi hj hij; omega
    · subst hij; rfl
    · have := hp j i hj hi hij; omega
  obtain ⟨r', res, h1, h2, _, h4, h5, _⟩ := C03_getClosest_nearest hr hv hsp hn1 hnum
  refine ⟨r', res, h1, ?_⟩
  by_cases hm : x ∈ res
  · exact hm
  · exfalso
    match res, h2 with
    | [], h2 => simp at h2; omega
    | y :: _, _ =>
      have h6 := h5 y (by simp) x hx hm
      have hself : circ (keyOf x) (keyOf x) = 0 := by
        have : cw (keyOf x) (keyOf x) = 0 := by
          unfold cw; rw [Nat.add_comm, Nat.add_sub_cancel, Nat.mod_self]
        simp [circ, this]
      rw [hself] at h6
      have hyl := h4 y (by simp)
      have hky : keyOf x ≠ keyOf y := by
        intro he
        have := hsp y hyl he.symm
        subst this
        exact hm (by simp)
      have hvy := isRing_valid hr y hyl
      have p1 := cw_pos (keyOf_lt hv) (keyOf_lt hvy) hky
      have p2 := cw_pos (keyOf_lt hvy) (keyOf_lt hv) (Ne.symm hky)
      unfold circ at h6
      omega

example : ∃ r, IsRing r [rep '1', rep '3', rep '5', rep '7'] ∧ validateInput (rep '4') = true ∧
    SameSpelling [rep '1', rep '3', rep '5', rep '7'] (rep '4') ∧ (1 : Int) ≤ 2 := by
  obtain ⟨r, _, hr⟩ := exampleRing
  exact ⟨r, hr, by decide +kernel, by unfold SameSpelling; decide +kernel, by decide⟩

/-! ## C04 -/

/-- **C04 (partial).** `GetClosest` without exclusion leaves the ring as it was, unless `num ≤ Size` and the target
is below all of two or more stored identifiers.  Missing: that case, where the target is left behind in the ring
(`C04_getClosest_leaves_target`). -/
theorem C04_getClosest_partial {r : Ring} {l : List Hex} {x : Hex} {num : Int} (hr : IsRing r l)
    (hx : validateInput x = true) (hsp : SameSpelling l x) (hn : 0 ≤ num)
    (hlow : num > l.length ∨ l.length < 2 ∨ ∃ y ∈ l, keyOf y ≤ keyOf x) :
    ∃ r' res, getClosest r x num [] = .ok (r', .val res) ∧ IsRing r' l := by
  have hs := isRing_size hr
  by_cases hl : l = []
  · subst hl
    simp at hs
    exact ⟨r, [], by simp [getClosest, hx, hs, pure, Except.pure], hr⟩
  by_cases hn0 : num = 0
  · exact ⟨r, [], by simp [getClosest, hx, hn0, pure, Except.pure], hr⟩
  by_cases hmore : num > l.length
  · match l, hl with
    | y :: l, _ =>
      exact ⟨r, _, getClosest_noExclude hr hx (by simp) hn0 (closestBody_more hr (by simpa using hmore)), hr⟩
  · obtain ⟨r', res, rest, h1, _, _, _, h5⟩ := getClosest_eq (num := num) hr hx hsp (by omega) (by omega)
    refine ⟨r', res, getClosest_noExclude hr hx hl hn0 h1, ?_⟩
    rcases h5 with h | h
    · exact h.1
    · exfalso
      rcases hlow with h' | h' | ⟨y, hy, h'⟩
      · exact hmore h'
      · omega
      · have := h.1.2 y hy; omega

/-- **C04 (partial).** `GetWithinRange` leaves the ring as it was unless one of the two ends is not stored and lies
below everything in the ring at that moment. -/
theorem C04_getWithinRange_partial {r : Ring} {l : List Hex} {a b : Hex} (hr : IsRing r l)
    (ha : validateInput a = true) (hb : validateInput b = true) (hspa : SameSpelling l a) (hspb : SameSpelling l b)
    (hab : keyOf a ≠ keyOf b)
    (hlowa : l.length < 2 ∨ ∃ y ∈ l, keyOf y ≤ keyOf a)
    (hlowb : l = [] ∨ (∃ y ∈ l, keyOf y ≤ keyOf b) ∨ (keyOf a < keyOf b ∧ a ∉ l)) :
    ∃ r' res, getWithinRange r a b = .ok (r', .val res) ∧ IsRing r' l := by
  obtain ⟨r', h1, h2⟩ := getWithinRange_eq hr ha hb hspa hspb hab
  refine ⟨r', _, h1, ?_⟩
  have h3 : ¬ (2 ≤ (addSorted a l).length ∧ ∀ y ∈ addSorted a l, keyOf b < keyOf y) := by
    rintro ⟨h4, h5⟩
    rcases hlowb with rfl | ⟨y, hy, h⟩ | ⟨h, _⟩
    · simp [addSorted] at h4
    · have := h5 y (addSorted_mem hy); omega
    · have := h5 a (mem_addSorted_self hspa); omega
  rcases h2 h3 with h | h
  · exact h.1
  · exfalso
    rcases hlowa with h' | ⟨y, hy, h'⟩
    · omega
    · have := h.1.2 y hy; omega

/-- What the code does instead: a query for the nodes nearest to an identifier below all stored ones leaves that
identifier linked into the ring. -/
theorem C04_getClosest_leaves_target {r : Ring} {l : List Hex} {x : Hex} {num : Int} (hr : IsRing r l)
    (hx : validateInput x = true) (hn : 1 ≤ num) (hnum : num ≤ l.length) (hl : 2 ≤ l.length)
    (hlow : ∀ y ∈ l, keyOf x < keyOf y) :
    ∃ r' res, getClosest r x num [] = .ok (r', .val res) ∧ dump r' = .ok (l ++ [x]) := by
  have hsp : SameSpelling l x := fun y hy he => by have := hlow y hy; omega
  obtain ⟨r', res, rest, h1, _, _, _, h5⟩ := getClosest_eq hr hx hsp hn hnum
  refine ⟨r', res, getClosest_noExclude hr hx (fun h => by rw [h] at hl; simp at hl) (by omega) h1, ?_⟩
  rcases h5 with h | h
  · exact absurd ⟨hl, hlow⟩ h.2
  · exact h.2.2.1

/-- **C04 (refuted).** -/
theorem C04_queries_pure_refuted : ¬ ∀ (r : Ring) (l : List Hex) (x : Hex) (num : Int), IsRing r l → validateInput x = true →
    SameSpelling l x → 1 ≤ num → num ≤ l.length →
    ∃ r' res, getClosest r x num [] = .ok (r', .val res) ∧ dump r' = .ok l := by
  intro h
  obtain ⟨r, _, hr⟩ := exampleRing
  have hlow : ∀ y ∈ [rep '1', rep '3', rep '5', rep '7'], keyOf (rep '0') < keyOf y := by decide +kernel
  obtain ⟨r', res, h1, h2⟩ := h r _ (rep '0') 1 hr (by decide +kernel)
    (fun y hy he => by have := hlow y hy; omega) (by decide) (by decide)
  obtain ⟨r'', res', h3, h4⟩ := C04_getClosest_leaves_target hr (num := 1) (by decide +kernel) (by decide) (by decide) (by decide) hlow
  rw [h1] at h3
  simp at h3
  rw [← h3.1, h2] at h4
  revert h4
  decide +kernel

example : (∃ y ∈ [rep '1', rep '3', rep '5', rep '7'], keyOf y ≤ keyOf (rep '4')) := by decide +kernel

/-! ## C05 -/

/-- **C05.** `GetWithinRange(a, b)` with `a ≠ b` returns, clockwise from `a`, exactly the stored identifiers on the
clockwise arc from `a` to `b` (`arc` in `Spec/Ring.lean`), both ends included when stored. -/
theorem C05_getWithinRange_arc {r : Ring} {l : List Hex} {a b : Hex} (hr : IsRing r l) (ha : validateInput a = true)
    (hb : validateInput b = true) (hspa : SameSpelling l a) (hspb : SameSpelling l b) (hab : keyOf a ≠ keyOf b) :
    ∃ r', getWithinRange r a b = .ok (r', .val (arc (keyOf a) (keyOf b) l)) := by
  obtain ⟨r', h1, _⟩ := getWithinRange_eq hr ha hb hspa hspb hab
  exact ⟨r', h1⟩

/-- The specification `arc` says what it should: membership by clockwise distance from `a`. -/
theorem C05_arc_meaning {a b : Nat} {l : List Hex} (ha : a < 2 ^ 256) (hb : b < 2 ^ 256)
    (hl : ∀ y ∈ l, validateInput y = true) (y : Hex) :
    y ∈ arc a b l ↔ y ∈ l ∧ cw a (keyOf y) ≤ cw a b := by
  unfold arc
  constructor
  · intro h
    split at h
    · simp only [List.mem_filter, decide_eq_true_eq] at h
      refine ⟨h.1, ?_⟩
      rw [cw_eq ha hb, cw_eq ha (keyOf_lt (hl y h.1)), if_pos (by omega), if_pos (by omega)]
      omega
    · simp only [List.mem_append, List.mem_filter, decide_eq_true_eq] at h
      rcases h with h | h
      · refine ⟨h.1, ?_⟩
        have := keyOf_lt (hl y h.1)
        rw [cw_eq ha hb, cw_eq ha this, if_pos (by omega), if_neg (by omega)]
        omega
      · refine ⟨h.1, ?_⟩
        rw [cw_eq ha hb, cw_eq ha (keyOf_lt (hl y h.1)), if_neg (by omega), if_neg (by omega)]
        omega
  · rintro ⟨hm, hd⟩
    have hk := keyOf_lt (hl y hm)
    rw [cw_eq ha hb, cw_eq ha hk] at hd
    split
    · simp only [List.mem_filter, decide_eq_true_eq]
      rename_i hab
      rw [if_pos hab] at hd
      split at hd
      · exact ⟨hm, by omega, by omega⟩
      · omega
    · rename_i hab
      rw [if_neg hab] at hd
      simp only [List.mem_append, List.mem_filter, decide_eq_true_eq]
      split at hd
      · exact Or.inl ⟨hm, by omega⟩
      · exact Or.inr ⟨hm, by omega⟩

/-- … and the order is by clockwise distance from `a`. -/
theorem C05_arc_order {a b : Nat} {l : List Hex} (ha : a < 2 ^ 256)
    (hl : ∀ y ∈ l, validateInput y = true) (hs : l.Pairwise (fun x y => keyOf x < keyOf y)) :
    (arc a b l).Pairwise (fun x y => cw a (keyOf x) < cw a (keyOf y)) := by
  unfold arc
  split
  · rw [List.pairwise_filter]
    refine hs.imp_of_mem ?_
    intro x y hx hy hxy h1 h2
    simp only [decide_eq_true_eq] at h1 h2
    rw [cw_eq ha (keyOf_lt (hl x hx)), cw_eq ha (keyOf_lt (hl y hy)), if_pos (by omega), if_pos (by omega)]
    omega
  · rename_i hab
    rw [List.pairwise_append]
    refine ⟨?_, ?_, ?_⟩
    · rw [List.pairwise_filter]
      refine hs.imp_of_mem ?_
      intro x y hx hy hxy h1 h2
      simp only [decide_eq_true_eq] at h1 h2
      rw [cw_eq ha (keyOf_lt (hl x hx)), cw_eq ha (keyOf_lt (hl y hy)), if_pos (by omega), if_pos (by omega)]
      omega
    · rw [List.pairwise_filter]
      refine hs.imp_of_mem ?_
      intro x y hx hy hxy h1 h2
      simp only [decide_eq_true_eq] at h1 h2
      rw [cw_eq ha (keyOf_lt (hl x hx)), cw_eq ha (keyOf_lt (hl y hy)), if_neg (by omega), if_neg (by omega)]
      omega
    · intro x hx y hy
      simp only [List.mem_filter, decide_eq_true_eq] at hx hy
      have h1 := keyOf_lt (hl x hx.1)
      rw [cw_eq ha h1, cw_eq ha (keyOf_lt (hl y hy.1)), if_pos (by omega), if_neg (by omega)]
      omega

example : ∃ r r', IsRing r [rep '1', rep '3', rep '5', rep '7'] ∧
    getWithinRange r (rep '5') (rep '2') = .ok (r', .val [rep '5', rep '7', rep '1']) := by
  obtain ⟨r, _, hr⟩ := exampleRing
  obtain ⟨r', h⟩ := C05_getWithinRange_arc (a := rep '5') (b := rep '2') hr (by decide +kernel) (by decide +kernel)
    (by unfold SameSpelling; decide +kernel) (by unfold SameSpelling; decide +kernel) (by decide +kernel)
  refine ⟨r, r', hr, ?_⟩
  rw [h]
  have : arc (keyOf (rep '5')) (keyOf (rep '2')) [rep '1', rep '3', rep '5', rep '7'] = [rep '5', rep '7', rep '1'] := by
    decide +kernel
  rw [this]

/-! ## C06 -/

/-- **C06 (partial).** `GetClosest(x, num, e)` on a ring of two or more never returns `e`; the answer consists of the
`num` nearest of the other identifiers (if there are that many), and `e` and all others are still stored afterwards
if moreover the query itself is harmless (`x` not below all others).  *Provided* `e` is not the smallest of three or
more.  Missing: that case, where the code can return `e` (`C06_exclude_refuted`). -/
theorem C06_exclude_partial {r : Ring} {l : List Hex} {x e : Hex} {num : Int} (hr : IsRing r l)
    (hx : validateInput x = true) (he : validateInput e = true) (hsp : SameSpelling l x) (hlen : 2 ≤ l.length)
    (hclean : 3 ≤ l.length → l.head? ≠ some e) (hn : 1 ≤ num) :
    ∃ r' res, getClosest r x num e = .ok (r', .val res) ∧ e ∉ res ∧ (∀ y ∈ res, y ∈ l) ∧
      (num ≤ (l.erase e).length → (res.length : Int) = num ∧
        ∀ y ∈ res, ∀ z ∈ l, z ≠ e → z ∉ res → circ (keyOf x) (keyOf y) ≤ circ (keyOf x) (keyOf z)) ∧
      ((num > (l.erase e).length ∨ (l.erase e).length < 2 ∨ ∃ y ∈ l, y ≠ e ∧ keyOf y ≤ keyOf x) → IsRing r' l) := by
  have hnd := isRing_nodup hr
  have hmem : ∀ y, y ∈ l.erase e ↔ y ≠ e ∧ y ∈ l := fun y => hnd.mem_erase_iff
  have hsp1 : SameSpelling (l.erase e) x := fun y hy => hsp y ((hmem y).mp hy).2
  have hc : CleanRemove l e := ⟨fun h => by omega, hclean⟩
  obtain ⟨r1, hrem, hr1⟩ := remove_clean hr he hc
  by_cases hmore : num > (l.erase e).length
  · cases hle : l.erase e with
    | nil =>
      have h1 : (l.erase e).length = l.length ∨ (l.erase e).length = l.length - 1 := by
        by_cases hm : e ∈ l
        · exact Or.inr (List.length_erase_of_mem hm)
        · exact Or.inl (by rw [List.erase_of_not_mem hm])
      rw [hle] at h1; simp at h1; omega
    | cons y l' =>
      rw [hle] at hr1 hmore hmem
      have hbody : ∀ q, IsRing q (l.erase e) → remove r e = .ok q →
          closestBody q x num = .ok (r1, (if y = x then [y] else []) ++ l') := by
        intro q _ h2
        rw [hrem] at h2
        simp at h2; subst h2
        exact closestBody_more hr1 (by simpa using hmore)
      have := (getClosest_exclude hr hx he hlen hc (by omega) hbody).1 (by rw [hle]; exact hr1)
      obtain ⟨r3, h1, h2⟩ := this
      have hsub : ∀ z ∈ (if y = x then [y] else []) ++ l', z ∈ y :: l' := by
        intro z hz
        rw [List.mem_append] at hz
        rcases hz with hz | hz
        · split at hz
          · simp at hz; simp [hz]
          · simp at hz
        · simp [hz]
      refine ⟨r3, _, h1, ?_, ?_, ?_, fun _ => h2⟩
      · intro hm
        exact ((hmem e).mp (hsub e hm)).1 rfl
      · intro z hz
        exact ((hmem z).mp (hsub z hz)).2
      · intro h; omega
  · obtain ⟨r2, res, rest, h1, ⟨pre, post, h2, h3⟩, h4, h5, h6⟩ := getClosest_eq hr1 hx hsp1 hn (by omega)
    have hbody : ∀ q, IsRing q (l.erase e) → remove r e = .ok q → closestBody q x num = .ok (r2, res) := by
      intro q _ hq
      rw [hrem] at hq
      simp at hq; subst hq
      exact h1
    obtain ⟨hcase1, hcase2⟩ := getClosest_exclude hr hx he hlen hc (by omega) hbody
    have hperm : (res ++ rest).Perm (l.erase e) := by
      rw [← h3, h2]; exact List.perm_append_comm
    have hres : ∀ y ∈ res, y ≠ e ∧ y ∈ l := fun y hy => (hmem y).mp (hperm.mem_iff.mp (by simp [hy]))
    have hnear : ∀ y ∈ res, ∀ z ∈ l, z ≠ e → z ∉ res → circ (keyOf x) (keyOf y) ≤ circ (keyOf x) (keyOf z) := by
      intro y hy z hz hze hzn
      have := hperm.mem_iff.mpr ((hmem z).mpr ⟨hze, hz⟩)
      simp only [List.mem_append] at this
      rcases this with h | h
      · exact absurd h hzn
      · exact h4 y hy z h
    rcases h6 with ⟨hok, _⟩ | ⟨hbad, _, _, hw⟩
    · obtain ⟨r3, h7, h8⟩ := hcase1 hok
      exact ⟨r3, res, h7, fun hm => (hres e hm).1 rfl, fun y hy => (hres y hy).2, fun _ => ⟨h5, hnear⟩, fun _ => h8⟩
    · obtain ⟨r3, h7⟩ := hcase2 hw
      refine ⟨r3, res, h7, fun hm => (hres e hm).1 rfl, fun y hy => (hres y hy).2, fun _ => ⟨h5, hnear⟩, ?_⟩
      intro h
      exfalso
      rcases h with h | h | ⟨y, hy, hye, h⟩
      · exact hmore h
      · omega
      · have := hbad.2 y ((hmem y).mpr ⟨hye, hy⟩); omega

/-- A ring holding `1111…`, `2222…`, `3333…`. -/
theorem threeRing : ∃ r, insertAll createRing [rep '1', rep '2', rep '3'] = .ok r ∧
    IsRing r [rep '1', rep '2', rep '3'] := by
  obtain ⟨r, h1, h2⟩ := insertAll_eq (xs := [rep '1', rep '2', rep '3']) isRing_create
  refine ⟨r, h1, ?_⟩
  have e : [rep '1', rep '2', rep '3'].foldl
      (fun l x => if validateInput x then addSorted x l else l) [] = [rep '1', rep '2', rep '3'] := by
    decide +kernel
  rwa [e] at h2

/-- Asked for the two identifiers nearest to `4444…` except `1111…`, the ring `1111…, 2222…, 3333…` answers with
`1111…` among them. -/
theorem C06_exclude_returned : ((do
    let r ← insertAll createRing [rep '1', rep '2', rep '3']
    let (_, res) ← getClosest r (rep '4') 2 (rep '1')
    return res) : Except Fault (Ret (List Hex))) = .ok (.val [rep '1', rep '2']) := by
  decide +kernel

/-- **C06 (refuted).** -/
theorem C06_exclude_refuted : ¬ ∀ (r : Ring) (l : List Hex) (x e : Hex) (num : Int), IsRing r l →
    validateInput x = true → validateInput e = true → SameSpelling l x → x ≠ e → 1 ≤ num →
    ∃ r' res, getClosest r x num e = .ok (r', .val res) ∧ e ∉ res := by
  intro h
  obtain ⟨r, h1, h2⟩ := threeRing
  obtain ⟨r', res, h3, h4⟩ := h r _ (rep '4') (rep '1') 2 h2 (by decide +kernel) (by decide +kernel)
    (by unfold SameSpelling; decide +kernel) (by decide +kernel) (by decide)
  have h5 := C06_exclude_returned
  rw [h1] at h5
  simp only [bind, Except.bind, pure, Except.pure, h3] at h5
  injection h5 with h5
  injection h5 with h5
  subst h5
  exact h4 (by simp)

example : ∃ r, IsRing r [rep '1', rep '3', rep '5', rep '7'] ∧
    [rep '1', rep '3', rep '5', rep '7'].head? ≠ some (rep '5') := by
  obtain ⟨r, _, hr⟩ := exampleRing
  exact ⟨r, hr, by decide +kernel⟩

/-! ## C07 -/

/-- **C07.** For different keys the distance is between 1 and 2^256 - 1, … -/
theorem C07_dist_range {a b : Nat} (ha : a < 2 ^ 256) (hb : b < 2 ^ 256) (h : a ≠ b) :
    1 ≤ getDist a b ∧ getDist a b < 2 ^ 256 := by
  unfold getDist
  split <;> omega

/-- … from a key to itself it is the whole circle, … -/
theorem C07_dist_self {a : Nat} (ha : a < 2 ^ 256) : getDist a a = 2 ^ 256 := by
  unfold getDist
  split <;> omega

/-- … walking it clockwise from `a` leads to `b`, … -/
theorem C07_dist_leads {a b : Nat} (ha : a < 2 ^ 256) (hb : b < 2 ^ 256) : (a + getDist a b) % 2 ^ 256 = b := by
  unfold getDist
  split
  · rw [Nat.add_sub_cancel' (by omega)]; exact Nat.mod_eq_of_lt hb
  · have : a + (2 ^ 256 - 1 - a + (b - 0) + 1) = b + 2 ^ 256 := by omega
    rw [this, Nat.add_mod_right, Nat.mod_eq_of_lt hb]

/-- … and there and back again is once round. -/
theorem C07_dist_roundtrip {a b : Nat} (ha : a < 2 ^ 256) (hb : b < 2 ^ 256) (h : a ≠ b) :
    getDist a b + getDist b a = 2 ^ 256 := by
  unfold getDist
  split <;> split <;> omega

/-- **C07.** Around a well-formed ring of two or more nodes the stored distances add up to exactly 2^256. -/
theorem C07_dist_sum {r : Ring} {as : List Nat} {l : List Hex} (hr : IsRingAt r as l) (h2 : 2 ≤ as.length) :
    (as.map fun a => ((r.heap a).distNext).getD 0).sum = 2 ^ 256 := by
  match as, hr with
  | [], _ => simp at h2
  | a :: rest, hr =>
    obtain ⟨z, hz⟩ : ∃ z, (a :: rest).getLast? = some z := ⟨_, List.getLast?_eq_some_getLast (by simp)⟩
    have h1 := sum_links hr.links (fun b hb => hr.key_lt hb) hr.sorted_nodes hz
    have hc := hr.closed h2 z a hz rfl
    have hza : (r.heap a).key < (r.heap z).key := by
      match rest, h2 with
      | b :: rest, _ =>
        rw [List.getLast?_cons_cons] at hz
        have hzm := List.mem_of_getLast? hz
        exact (List.pairwise_cons.mp hr.sorted_nodes).1 z hzm
    have hk1 := hr.key_lt (a := a) (by simp)
    have hk2 := hr.key_lt (List.mem_of_getLast? hz)
    have e : ((r.heap z).distNext).getD 0 = (r.heap a).key + 2 ^ 256 - (r.heap z).key := by
      rw [hc.2.2.1, Option.getD_some, cw_eq hk2 hk1, if_neg (Nat.not_le_of_lt hza)]
    exact once_round h1 hk2 (sum_last (f := fun a => ((r.heap a).distNext).getD 0) hz) e

example : getDist 5 3 = 2 ^ 256 - 2 ∧ getDist 3 5 = 2 := by decide
example : ∃ r as, IsRingAt r as [rep '1', rep '3', rep '5', rep '7'] ∧ 2 ≤ as.length := by
  obtain ⟨r, _, as, hr⟩ := exampleRing
  exact ⟨r, as, hr, by rw [← hr.length]; decide⟩

/-! ## C66 -/

/-- **C66 (partial).** Asked for more than is stored, `GetClosest(x, num, "")` returns everything except that the
smallest identifier is left out when it differs from the target. -/
theorem C66_getClosest_more_partial {r : Ring} {y : Hex} {l : List Hex} {x : Hex} {num : Int} (hr : IsRing r (y :: l))
    (hx : validateInput x = true) (hnum : num > (l.length + 1 : Nat)) :
    getClosest r x num [] = .ok (r, .val (if y = x then y :: l else l)) := by
  have := getClosest_noExclude hr hx (by simp) (by omega) (closestBody_more (x := x) hr hnum)
  rw [this]
  split <;> simp

/-- **C66 (refuted).** -/
theorem C66_getClosest_more_refuted : ¬ ∀ (r : Ring) (l : List Hex) (x : Hex) (num : Int), IsRing r l →
    validateInput x = true → num > l.length →
    ∃ r' res, getClosest r x num [] = .ok (r', .val res) ∧ ∀ y ∈ l, y ∈ res := by
  intro h
  obtain ⟨r, _, hr⟩ := exampleRing
  obtain ⟨r', res, h1, h2⟩ := h r _ (rep '4') 5 hr (by decide +kernel) (by decide)
  have h3 := C66_getClosest_more_partial (x := rep '4') (num := 5) hr (by decide +kernel) (by decide)
  rw [h1] at h3
  injection h3 with h3
  injection h3 with _ h3
  injection h3 with h3
  have h4 := h2 (rep '1') (by simp)
  rw [h3] at h4
  revert h4
  decide +kernel

example : ∃ r, IsRing r [rep '1', rep '3', rep '5', rep '7'] ∧ (5 : Int) > ([rep '3', rep '5', rep '7'].length + 1 : Nat) := by
  obtain ⟨r, _, hr⟩ := exampleRing
  exact ⟨r, hr, by decide⟩

end FcRetrieval.Ring
