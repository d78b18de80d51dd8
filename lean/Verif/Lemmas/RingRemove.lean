import Verif.Lemmas.RingWalk
/-! Helper lemmas: `Remove` and `get` on well-formed rings. -/

set_option linter.unusedSimpArgs false

namespace FcRetrieval.Ring

theorem removeLoop_eq {h : Heap} {hv hex : Hex} {e : Option Nat} (hs : Stops h hv e) :
    ∀ {xs : List Nat} {fuel : Nat},
    Path h xs e → (∀ a ∈ xs, (h a).val ≠ hv) → (∀ a ∈ xs, (h a).key = keyOf (h a).val) →
    xs.Pairwise (fun a b => (h a).key < (h b).key) → xs.length < fuel →
    removeLoop h hv hex (keyOf hex) fuel (xs.head?.or e) = .ok (xs.find? fun a => (h a).val = hex)
  | [], fuel + 1, _, _, _, _, _ => by
    simp only [List.head?_nil, Option.none_or, List.find?_nil]
    cases e with
    | none => rfl
    | some z => simp [removeLoop, hs z rfl]
  | a :: xs, fuel + 1, hp, hne, hk, hsort, hf => by
    rw [List.pairwise_cons] at hsort
    have ih := removeLoop_eq hs (hex := hex) (xs := xs) (fuel := fuel) hp.2 (fun b hb => hne b (List.mem_cons_of_mem _ hb))
      (fun b hb => hk b (List.mem_cons_of_mem _ hb)) hsort.2 (by simpa using hf)
    simp only [List.head?_cons, Option.some_or, removeLoop]
    rw [if_neg (hne a (by simp))]
    by_cases hh : (h a).val = hex
    · simp [hh]
    · rw [if_neg hh, List.find?_cons_of_neg (by simpa using hh)]
      by_cases hg : (h a).key > keyOf hex
      · rw [if_pos hg, List.find?_eq_none.mpr]
        intro b hb hv'
        have h1 := hsort.1 b hb
        have h2 := hk b (List.mem_cons_of_mem _ hb)
        simp at hv'
        rw [hv'] at h2
        omega
      · rw [if_neg hg, hp.1, ih]

/-- The heap after linking `p` directly to `c`. -/
def joined (h : Heap) (p c : Nat) : Heap := fun i =>
  { prv := if i = c then some p else (h i).prv
    distPrv := if i = c then some (h.dist p c) else (h i).distPrv
    key := (h i).key
    val := (h i).val
    distNext := if i = p then some (h.dist p c) else (h i).distNext
    next := if i = p then some c else (h i).next }

theorem join_writes (h : Heap) (p c : Nat) :
    (let h1 := h.setNext p (some c)
     let h2 := h1.setDistNext p (some (h1.dist p c))
     let h3 := h2.setPrv c (some p)
     h3.setDistPrv c (some (h3.dist p c))) = joined h p c := by
  funext i
  simp only [Heap.setPrv, Heap.setDistPrv, Heap.setNext, Heap.setDistNext, Heap.upd, Heap.dist, joined]
  by_cases h2 : i = c <;> by_cases h3 : i = p <;> simp [h2, h3] <;> grind

theorem linked_joined {h : Heap} {p c a b : Nat} (hap : a ≠ p) (hbc : b ≠ c)
    (hl : Linked h a b) : Linked (joined h p c) a b := by
  obtain ⟨h1, h2, h3, h4⟩ := hl
  refine ⟨?_, ?_, ?_, ?_⟩ <;> simp [joined, hap, hbc, h1, h2, h3, h4]

theorem linked_join {h : Heap} {p c : Nat} (hd : h.dist p c = cw (h p).key (h c).key) :
    Linked (joined h p c) p c := by
  refine ⟨?_, ?_, ?_, ?_⟩ <;> simp [joined, hd]

/-- Taking node `x` out from between its neighbours `p` and `c`. -/
theorem join_isRing {r : Ring} {lo hi : List Nat} {l : List Hex} {n p c : Nat}
    (hr : IsRingAt r (lo ++ n :: hi) l) (hlo : lo ≠ []) (hlen : 3 ≤ (lo ++ n :: hi).length)
    (hp : lo.getLast? = some p) (hc : (hi ++ lo).head? = some c) :
    IsRingAt { r with heap := joined r.heap p c, size := r.size - 1 }
      (lo ++ hi) ((lo.map fun a => (r.heap a).val) ++ (hi.map fun a => (r.heap a).val)) := by
  have hnd := hr.nodup
  rw [List.nodup_append, List.nodup_cons] at hnd
  obtain ⟨hndlo, ⟨hnhi, hndhi⟩, hdisj⟩ := hnd
  have hdisj' : ∀ a ∈ lo, ∀ b ∈ hi, a ≠ b := fun a ha b hb => hdisj a ha b (List.mem_cons_of_mem _ hb)
  have hpm : p ∈ lo := List.mem_of_getLast? hp
  have hcm : c ∈ lo ++ hi := by
    have := List.mem_of_head? hc
    simp only [List.mem_append] at this ⊢; exact this.symm
  have hsub : ∀ a, a ∈ lo ++ hi → a ∈ lo ++ n :: hi := by
    intro a ha
    simp only [List.mem_append, List.mem_cons] at ha ⊢
    grind
  have hpc : p ≠ c := by
    rintro rfl
    cases hi with
    | nil =>
      simp at hc hlen
      obtain ⟨lo', rfl⟩ := List.getLast?_eq_some_iff.mp hp
      cases lo' with
      | nil => simp at hlen
      | cons d lo' =>
        simp at hc
        subst hc
        rw [List.cons_append, List.nodup_cons] at hndlo
        exact hndlo.1 (by simp)
    | cons d hi =>
      simp at hc
      subst hc
      exact hdisj' d hpm d (by simp) rfl
  have hpk := hr.key_lt (hsub p (List.mem_append_left _ hpm))
  have hck := hr.key_lt (hsub c hcm)
  have hkne : (r.heap p).key ≠ (r.heap c).key := by
    intro h
    have hs := hr.sorted_nodes
    have hpmm := hsub p (List.mem_append_left _ hpm)
    have hcmm := hsub c hcm
    obtain ⟨i, hi', rfl⟩ := List.getElem_of_mem hpmm
    obtain ⟨j, hj, rfl⟩ := List.getElem_of_mem hcmm
    have hs := List.pairwise_iff_getElem.mp hs
    rcases Nat.lt_trichotomy i j with hij | hij | hij
    · have := hs i j hi' hj hij; omega
    · subst hij; exact hpc rfl
    · have := hs j i hj hi' hij; omega
  have hd : r.heap.dist p c = cw (r.heap p).key (r.heap c).key := getDist_eq_cw hpk hck hkne
  have hlinks := hr.links
  rw [consecutive_append] at hlinks
  obtain ⟨hllo, hlhi, hlmid⟩ := hlinks
  have hlhi := consecutive_tail hlhi
  have hlo' : Consecutive (Linked (joined r.heap p c)) lo := by
    refine consecutive_mono ?_ hllo
    intro a ha b hb hl
    have hb' := List.mem_of_mem_tail hb
    refine linked_joined ?_ ?_ hl
    · rintro rfl
      exact getLast_not_mem_dropLast hndlo hp ha
    · rintro rfl
      cases hi with
      | nil => exact head_not_mem_tail hndlo (by simpa using hc) hb
      | cons d hi =>
        simp only [List.cons_append, List.head?_cons, Option.some.injEq] at hc
        subst hc
        exact hdisj' d hb' d (by simp) rfl
  have hhi' : Consecutive (Linked (joined r.heap p c)) hi := by
    refine consecutive_mono ?_ hlhi
    intro a ha b hb hl
    have ha' := List.dropLast_subset _ ha
    have hb' := List.mem_of_mem_tail hb
    refine linked_joined ?_ ?_ hl
    · rintro rfl
      exact hdisj' a hpm a ha' rfl
    · rintro rfl
      cases hi with
      | nil => simp at ha'
      | cons d hi =>
        simp only [List.cons_append, List.head?_cons, Option.some.injEq] at hc
        subst hc
        exact head_not_mem_tail hndhi rfl hb
  constructor
  · cases lo with
    | nil => exact absurd rfl hlo
    | cons a lo => simp [hr.head]
  · simp [hr.size]
  · rw [List.nodup_append]
    exact ⟨hndlo, hndhi, hdisj'⟩
  · intro a ha
    exact hr.alloc a (hsub a ha)
  · simp [joined]
  · intro a ha
    exact hr.keys a (hsub a ha)
  · intro y hy
    have hv := hr.valid
    rw [← hr.vals] at hv
    apply hv
    rw [← List.map_append, List.mem_map] at hy
    obtain ⟨a, ha, rfl⟩ := hy
    exact List.mem_map_of_mem (hsub a ha)
  · have hs := hr.sorted
    rw [← hr.vals, List.map_append, List.map_cons] at hs
    refine hs.sublist ?_
    exact List.Sublist.append_left (List.sublist_cons_self _ _) _
  · rw [consecutive_append]
    refine ⟨hlo', hhi', ?_⟩
    intro a b ha hb
    rw [hp] at ha
    simp at ha
    subst ha
    rw [List.head?_append, hb] at hc
    simp at hc
    subst hc
    exact linked_join hd
  · intro a ha
    exfalso
    have := congrArg List.length ha
    simp at this hlen
    omega
  · intro _ a b ha hb
    cases lo with
    | nil => exact absurd rfl hlo
    | cons e lo =>
      simp at hb
      subst hb
      cases hi with
      | nil =>
        simp at hc
        subst hc
        rw [List.append_nil, hp] at ha
        simp at ha
        subst ha
        exact linked_join hd
      | cons d hi =>
        have hds : ∃ z, (d :: hi).getLast? = some z := ⟨_, List.getLast?_eq_some_getLast (by simp)⟩
        obtain ⟨z, hz⟩ := hds
        rw [List.getLast?_append, hz] at ha
        simp at ha
        subst ha
        have hzm : z ∈ d :: hi := List.mem_of_getLast? hz
        have hold := hr.closed (by simp; omega) z e
          (by rw [List.getLast?_append, List.getLast?_cons_cons, hz]; rfl) (by simp)
        refine linked_joined ?_ ?_ hold
        · rintro rfl
          exact hdisj' z hpm z hzm rfl
        · rintro rfl
          simp at hc
          exact hdisj' e (by simp) d (by simp) hc.symm

theorem isRing_size {r : Ring} {l : List Hex} (hr : IsRing r l) : r.size = l.length := by
  obtain ⟨as, hr⟩ := hr
  rw [hr.size, hr.length]

theorem remove_invalid {r : Ring} {x : Hex} (hx : validateInput x = false) : remove r x = .ok r := by
  simp [remove, hx, pure, Except.pure]

/-- Neighbours of a middle node. -/
theorem IsRingAt.neighbours {r : Ring} {lo hi : List Nat} {l : List Hex} {n : Nat}
    (hr : IsRingAt r (lo ++ n :: hi) l) (h2 : 2 ≤ (lo ++ n :: hi).length) :
    ∃ p c, (hi ++ lo).getLast? = some p ∧ (hi ++ lo).head? = some c ∧ Linked r.heap p n ∧ Linked r.heap n c := by
  have hlinks := hr.links
  rw [consecutive_append] at hlinks
  obtain ⟨_, hl2, hl3⟩ := hlinks
  have hne : hi ++ lo ≠ [] := by
    intro h
    rw [List.append_eq_nil_iff] at h
    obtain ⟨rfl, rfl⟩ := h
    simp at h2
  obtain ⟨p, hp⟩ : ∃ p, (hi ++ lo).getLast? = some p := ⟨_, List.getLast?_eq_some_getLast hne⟩
  obtain ⟨c, hc⟩ : ∃ c, (hi ++ lo).head? = some c := ⟨_, List.head?_eq_some_head hne⟩
  refine ⟨p, c, hp, hc, ?_, ?_⟩
  · cases hlo : lo.getLast? with
    | some z =>
      rw [List.getLast?_append, hlo] at hp
      simp at hp; subst hp
      exact hl3 z n hlo (by simp)
    | none =>
      have := List.getLast?_eq_none_iff.mp hlo
      subst this
      simp at hp
      refine hr.closed h2 p n ?_ (by simp)
      cases hi with
      | nil => simp at hp
      | cons d hi => rw [List.nil_append, List.getLast?_cons_cons]; exact hp
  · cases hi with
    | nil =>
      simp at hc
      refine hr.closed h2 n c (by simp) ?_
      rw [List.head?_append, hc]; rfl
    | cons d hi =>
      simp at hc; subst hc
      exact hl2.1

/-- `Remove` of an identifier other than the smallest, three or more stored. -/
theorem remove_big {r : Ring} {y : Hex} {l : List Hex} {x : Hex} (hr : IsRing r (y :: l)) (hx : validateInput x = true)
    (hl : 2 ≤ l.length) (hxy : x ≠ y) : ∃ r', remove r x = .ok r' ∧ IsRing r' (y :: l.erase x) := by
  obtain ⟨as, hr⟩ := hr
  cases as with
  | nil => have := hr.vals; simp at this
  | cons hd rest =>
    have hh := hr.head
    simp at hh
    have hsz := hr.size
    have hlen := hr.length
    have hvals := hr.vals
    simp at hlen hsz hvals
    obtain ⟨hvy, hvl⟩ := hvals
    have hpath := hr.path
    have hloop := removeLoop_eq (h := r.heap) (hv := (r.heap hd).val) (hex := x) (fuel := r.cap + 1) stops_endOf hpath.2 hr.rest_ne_head
      (fun a ha => hr.keys a (List.mem_cons_of_mem _ ha)) (List.pairwise_cons.mp hr.sorted_nodes).2
      (by have := hr.length_le_cap; simp at this; omega)
    rw [← hpath.1] at hloop
    have hred : remove r x = (removeLoop r.heap (r.heap hd).val x (keyOf x) (r.cap + 1) (r.heap hd).next).bind
        (fun o => match o with
          | none => .ok r
          | some current => .ok { r with heap := unlink r.heap current, size := r.size - 1 }) := by
      have hsz0 : r.size ≠ 0 := by omega
      have hsz1 : r.size ≠ 1 := by omega
      have hsz2 : r.size ≠ 2 := by omega
      have hne : ¬ (r.heap hd).val = x := by rw [hvy]; exact fun h => hxy h.symm
      simp only [remove, hx, if_neg hsz0, if_neg hsz1, if_neg hsz2, hh, deref, bind, pure, Except.pure, if_neg hne]
      simp only [Except.bind]
      rw [if_neg (by simp), if_neg hne]
      cases removeLoop r.heap (r.heap hd).val x (keyOf x) (r.cap + 1) (r.heap hd).next with
      | error f => rfl
      | ok o => cases o <;> rfl
    rw [hred, hloop]
    cases hf : rest.find? (fun a => (r.heap a).val = x) with
    | none =>
      refine ⟨r, rfl, ?_⟩
      have : l.erase x = l := by
        apply List.erase_of_not_mem
        intro hm
        rw [← hvl] at hm
        obtain ⟨a, ha, hax⟩ := List.mem_map.mp hm
        have := List.find?_eq_none.mp hf a ha
        simp [hax] at this
      rw [this]
      exact ⟨_, hr⟩
    | some n =>
      obtain ⟨hn, mid, hi, hrest, hmid⟩ := List.find?_eq_some_iff_append.mp hf
      simp at hn
      subst hrest
      have hr' : IsRingAt r ((hd :: mid) ++ n :: hi) (y :: l) := by simpa using hr
      have hlen3 : 3 ≤ ((hd :: mid) ++ n :: hi).length := by simp at hlen ⊢; omega
      obtain ⟨p, c, hp, hc, hpn, hnc⟩ := hr'.neighbours (by omega)
      have hp' : (hd :: mid).getLast? = some p := by
        rw [List.getLast?_append] at hp
        have : ∃ z, (hd :: mid).getLast? = some z := ⟨_, List.getLast?_eq_some_getLast (by simp)⟩
        obtain ⟨z, hz⟩ := this
        rw [hz] at hp ⊢
        simpa using hp
      have hj := join_isRing hr' (by simp) hlen3 hp' hc
      have hpm : p ∈ (hd :: mid) ++ n :: hi := List.mem_append_left _ (List.mem_of_getLast? hp')
      have hcm : c ∈ (hd :: mid) ++ n :: hi := by
        have := List.mem_of_head? hc
        simp only [List.mem_append, List.mem_cons] at this ⊢
        grind
      have hvne : ¬ (r.heap p).val = (r.heap c).val := by
        intro h
        have hpc := hr'.val_inj hpm hcm h
        have hlin := hj.closed
        -- p and c are distinct because at least three nodes are in the ring
        subst hpc
        have hnd := hr'.nodup
        cases hi with
        | nil =>
          simp at hc
          subst hc
          cases mid with
          | nil => simp at hlen3
          | cons d mid =>
            have := getLast_not_mem_dropLast (List.nodup_append.mp hnd).1 hp'
            apply this
            simp [List.dropLast_cons_cons]
        | cons d hi =>
          simp at hc
          subst hc
          have := (List.nodup_append.mp hnd).2.2 d (List.mem_of_getLast? hp') d (by simp)
          exact this rfl
      have hunl : unlink r.heap n = joined r.heap p c := by
        simp only [unlink, hpn.2.1, hnc.1, if_neg hvne]
        exact join_writes r.heap p c
      refine ⟨{ r with heap := joined r.heap p c, size := r.size - 1 }, ?_, ?_⟩
      · simp [Except.bind, hunl]
      · refine ⟨hd :: mid ++ hi, ?_⟩
        have e : (y :: l.erase x) = ((hd :: mid).map fun a => (r.heap a).val) ++ (hi.map fun a => (r.heap a).val) := by
          rw [← hvl, ← hvy]
          simp only [List.map_cons, List.map_append, List.cons_append]
          congr 1
          rw [List.erase_append_right]
          · rw [hn]; simp
          · intro hm
            obtain ⟨a, ha, hax⟩ := List.mem_map.mp hm
            have := hmid a ha
            simp [hax] at this
        rw [e]
        exact hj

theorem remove_one {r : Ring} {y x : Hex} (hr : IsRing r [y]) (hx : validateInput x = true) :
    ∃ r', remove r x = .ok r' ∧ IsRing r' [] := by
  have hs := isRing_size hr
  simp at hs
  refine ⟨{ r with head := none, size := 0 }, ?_, [], ?_⟩
  · simp [remove, hx, hs, bind, Except.bind, pure, Except.pure]
  · constructor <;> simp [Consecutive]

/-- A ring with one node whose links are nil. -/
theorem isRing_single {h : Heap} {cap a : Nat} {y : Hex} (hcap : a < cap) (hv : (h a).val = y)
    (hk : (h a).key = keyOf y) (hy : validateInput y = true) (hn : (h a).next = none) (hp : (h a).prv = none) :
    IsRing ⟨h, cap, some a, 1⟩ [y] := by
  refine ⟨[a], ?_⟩
  constructor <;> simp [Consecutive, hv, hk, hy, hn, hp, hcap]

theorem remove_two {r : Ring} {y z x : Hex} (hr : IsRing r [y, z]) (hx : validateInput x = true) :
    ∃ r', remove r x = .ok r' ∧ IsRing r' ([y, z].erase x) := by
  have hs := isRing_size hr
  simp at hs
  obtain ⟨as, hr⟩ := hr
  have hvals := hr.vals
  match as, hr, hvals with
  | [a, b], hr, hvals =>
    simp at hvals
    obtain ⟨hva, hvb⟩ := hvals
    have hh := hr.head
    simp at hh
    have hlk := hr.links.1
    have hab : a ≠ b := by
      have := hr.nodup; simp at this; exact this
    have hsort := hr.sorted
    have hyz : y ≠ z := by
      rintro rfl
      simp at hsort
    have hvy := hr.valid y (by simp)
    have hvz := hr.valid z (by simp)
    have hka := hr.keys a (by simp)
    have hkb := hr.keys b (by simp)
    have hca := hr.alloc a (by simp)
    have hcb := hr.alloc b (by simp)
    by_cases h1 : (r.heap a).val = x
    · refine ⟨_, by simp [remove, hx, hs, hh, deref, hlk.1, h1, bind, Except.bind, pure, Except.pure]; rfl, ?_⟩
      have : [y, z].erase x = [z] := by rw [← h1, hva]; simp
      rw [this]
      apply isRing_single hcb <;> simp [Heap.setNext, Heap.setPrv, Heap.setDistPrv, Heap.setDistNext, Heap.upd, hvb, hkb, hvz]
    · by_cases h2 : (r.heap b).val = x
      · refine ⟨⟨(((r.heap.setNext a none).setPrv a none).setDistPrv a (some 0)).setDistNext a (some 0), r.cap, some a, 1⟩, by simp [remove, hx, hs, hh, deref, hlk.1, h1, h2, bind, Except.bind, pure, Except.pure], ?_⟩
        have : [y, z].erase x = [y] := by
          rw [hvb] at h2
          subst h2
          rw [List.erase_cons_tail (by simpa using hyz)]
          simp
        rw [this]
        apply isRing_single hca <;> simp [Heap.setNext, Heap.setPrv, Heap.setDistPrv, Heap.setDistNext, Heap.upd, hva, hka, hvy]
      · refine ⟨r, by simp [remove, hx, hs, hh, deref, hlk.1, h1, h2, bind, Except.bind, pure, Except.pure], ?_⟩
        have : [y, z].erase x = [y, z] := by
          apply List.erase_of_not_mem
          rw [hva] at h1
          rw [hvb] at h2
          simp
          exact ⟨fun h => h1 h.symm, fun h => h2 h.symm⟩
        rw [this]
        exact ⟨_, hr⟩
  | [], hr, hvals => simp at hvals
  | [_], hr, hvals => simp at hvals
  | _ :: _ :: _ :: _, hr, hvals => simp at hvals

theorem remove_empty {r : Ring} {x : Hex} (hr : IsRing r []) : remove r x = .ok r := by
  have hs := isRing_size hr
  simp at hs
  simp only [remove, hs, bind, Except.bind, pure, Except.pure]
  split <;> simp

/-- The condition under which `Remove(x)` does what it should. -/
def CleanRemove (l : List Hex) (x : Hex) : Prop :=
  (l.length = 1 → l = [x]) ∧ (3 ≤ l.length → l.head? ≠ some x)

theorem remove_clean {r : Ring} {l : List Hex} {x : Hex} (hr : IsRing r l) (hx : validateInput x = true)
    (hc : CleanRemove l x) : ∃ r', remove r x = .ok r' ∧ IsRing r' (l.erase x) := by
  match l, hr, hc with
  | [], hr, _ => exact ⟨r, remove_empty hr, hr⟩
  | [y], hr, hc =>
    have := hc.1 rfl
    simp at this; subst this
    simpa using remove_one hr hx
  | [y, z], hr, _ => exact remove_two hr hx
  | y :: z :: w :: l, hr, hc =>
    have hne : x ≠ y := by
      have := hc.2 (by simp)
      simp at this
      exact fun h => this h.symm
    have := remove_big hr hx (by simp) hne
    rw [List.erase_cons_tail (by simpa using fun h => hne h.symm)]
    exact this

theorem IsRingAt.has_prv {r : Ring} {as : List Nat} {l : List Hex} (hr : IsRingAt r as l) (h2 : 2 ≤ as.length)
    {a : Nat} (ha : a ∈ as) : ∃ p, (r.heap a).prv = some p := by
  obtain ⟨lo, hi, rfl⟩ := List.append_of_mem ha
  obtain ⟨p, _, _, _, hp, _⟩ := hr.neighbours h2
  exact ⟨p, hp.2.1⟩

/-- A ring, possibly damaged, whose `next` pointers form one cycle through `as` and whose `prv` pointers are not nil. -/
structure Walkable (r : Ring) (as : List Nat) : Prop where
  head : r.head = as.head?
  two : 2 ≤ as.length
  len : as.length ≤ r.cap
  alloc : ∀ a ∈ as, a < r.cap
  path : ∀ hd, as.head? = some hd → Path r.heap as (some hd)
  prv : ∀ a ∈ as, ∃ p, (r.heap a).prv = some p
  distinct : ∀ hd rest, as = hd :: rest → ∀ a ∈ rest, (r.heap a).val ≠ (r.heap hd).val ∧ a ≠ hd

/-- What `Remove` of the smallest of three or more identifiers does: the size goes down but the identifier stays
linked in, now last. -/
theorem remove_head_big {r : Ring} {y : Hex} {l : List Hex} (hr : IsRing r (y :: l)) (hl : 2 ≤ l.length) :
    ∃ r', remove r y = .ok r' ∧ r'.size = l.length ∧ dump r' = .ok (l ++ [y]) ∧ ∃ as, Walkable r' as := by
  have hy : validateInput y = true := by
    obtain ⟨as, hr⟩ := hr
    exact hr.valid y (by simp)
  have hs := isRing_size hr
  simp at hs
  obtain ⟨as, hr⟩ := hr
  match as, hr with
  | [], hr => have := hr.vals; simp at this
  | [a], hr => have := hr.length; simp at this; subst this; simp at hl
  | a :: b :: rest, hr =>
    have hh := hr.head
    simp at hh
    have hvals := hr.vals
    simp at hvals
    obtain ⟨hva, hvl⟩ := hvals
    have hlk := hr.links.1
    have hnd := hr.nodup
    have hab : a ≠ b := by simp at hnd; exact hnd.1.1
    refine ⟨⟨((r.heap.setPrv a (some b)).setDistPrv b (some ((r.heap.setPrv a (some b)).dist a b))).setDistNext a (some ((r.heap.setPrv a (some b)).dist a b)), r.cap, some b, l.length⟩, ?_, rfl, ?_⟩
    · have hsz0 : r.size ≠ 0 := by omega
      have hsz1 : r.size ≠ 1 := by omega
      have hsz2 : r.size ≠ 2 := by omega
      have hprv : ((r.heap.setPrv a (some b)) b).prv = some a := by
        simp [Heap.setPrv, Heap.upd, Ne.symm hab, hlk.2.1]
      simp only [remove, hy, if_neg hsz0, if_neg hsz1, if_neg hsz2, hh, deref, bind, Except.bind, pure, Except.pure,
        if_pos hva, hlk.1, hprv]
      rw [if_neg (by simp)]
      simp [hs]
    · -- walk from b through rest, then to a, then back to b
      generalize hH : ((r.heap.setPrv a (some b)).setDistPrv b (some ((r.heap.setPrv a (some b)).dist a b))).setDistNext a (some ((r.heap.setPrv a (some b)).dist a b)) = h'
      have hnext : ∀ i, (h' i).next = (r.heap i).next := by
        intro i
        subst hH
        simp only [Heap.setPrv, Heap.setDistPrv, Heap.setDistNext, Heap.upd]
        grind
      have hval : ∀ i, (h' i).val = (r.heap i).val := by
        intro i
        subst hH
        simp only [Heap.setPrv, Heap.setDistPrv, Heap.setDistNext, Heap.upd]
        grind
      have hpath := hr.path
      have hpc : ∀ {xs e}, Path r.heap xs e → Path h' xs e := by
        intro xs
        induction xs with
        | nil => intro e h; trivial
        | cons z xs ih => intro e h; exact ⟨by rw [hnext]; exact h.1, ih h.2⟩
      have hp2 : Path h' (rest ++ [a]) (some b) := by
        have h1 : Path r.heap rest (some a) := by
          have := hpath.2.2
          simpa [endOf] using this
        have h2 : ∀ {xs}, Path r.heap xs (some a) → Path r.heap (xs ++ [a]) (some b) := by
          intro xs
          induction xs with
          | nil => intro _; exact ⟨by simpa using hlk.1, trivial⟩
          | cons z xs ih =>
            intro h
            refine ⟨?_, ih h.2⟩
            rw [h.1]
            show _ = (xs ++ [a]).head?.or _
            rw [List.head?_append]
            cases xs <;> simp
        exact hpc (h2 h1)
      have hne : ∀ z ∈ rest ++ [a], (h' z).val ≠ (h' b).val := by
        intro z hz
        rw [hval, hval]
        intro he
        have hzm : z ∈ a :: b :: rest := by
          simp only [List.mem_append, List.mem_singleton] at hz
          simp; grind
        have := hr.val_inj hzm (by simp) he
        subst this
        simp at hnd hz
        grind
      have hw := walk_eq (h := h') (hv := (h' b).val) (e := some b) (fuel := r.cap + 1)
        (by intro z hz; simp at hz; rw [hz]) hp2 hne (by have := hr.length_le_cap; simp at this ⊢; omega)
      simp only [dump]
      have hbn : (h' b).next = (rest ++ [a]).head?.or (some b) := by
        rw [hnext]
        have := hpath.2.1
        rw [this]
        cases rest <;> simp [endOf]
      refine ⟨?_, b :: (rest ++ [a]), ?_⟩
      · rw [hbn, hw]
        simp only [bind, Except.bind, pure, Except.pure, List.map_append, hval, List.map_cons, List.map_nil, hva]
        rw [← hvl]
        simp
      · refine ⟨rfl, by simp, by have := hr.length_le_cap; simpa using this, ?_, ?_, ?_, ?_⟩
        · intro z hz
          refine hr.alloc z ?_
          simp at hz ⊢; grind
        · intro z hz
          simp at hz
          subst hz
          exact ⟨hbn, hp2⟩
        · intro z hz
          have hzm : z ∈ a :: b :: rest := by simp at hz ⊢; grind
          obtain ⟨q, hq⟩ := hr.has_prv (by simp) hzm
          subst hH
          simp only [Heap.setPrv, Heap.setDistPrv, Heap.setDistNext, Heap.upd]
          by_cases hza : z = a <;> by_cases hzb : z = b <;> simp [hza, hzb, hq] <;> grind
        · intro hd tl hcons z hz
          simp at hcons
          obtain ⟨rfl, rfl⟩ := hcons
          refine ⟨hne z hz, ?_⟩
          intro h
          exact hne z hz (by rw [h])

/-- `get` finds the node holding the string. -/
theorem get_eq {r : Ring} {as : List Nat} {l : List Hex} {x : Hex} (hr : IsRingAt r as l) (hx : validateInput x = true) :
    get r x = .ok (as.find? fun a => (r.heap a).val = x) := by
  cases as with
  | nil =>
    have := hr.size
    simp at this
    simp [get, hx, this, bind, Except.bind, pure, Except.pure]
  | cons hd rest =>
    have hh := hr.head
    simp at hh
    have hsz0 : r.size ≠ 0 := by have := hr.size; simp at this; omega
    have hloop := getLoop_eq (hex := x) (fuel := r.cap + 1) stops_endOf hr.path.2 hr.rest_ne_head
      (by have := hr.length_le_cap; simp at this; omega)
    rw [← hr.path.1] at hloop
    simp only [get, hx, if_neg hsz0, hh, deref, bind, Except.bind, pure, Except.pure, hloop]
    by_cases h : (r.heap hd).val = x <;> simp [h]

end FcRetrieval.Ring
