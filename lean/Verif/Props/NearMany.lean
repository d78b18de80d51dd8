import Verif.Spec.NearMany
import Verif.Props.RegNear
/-!
# C94: any number of lookups by nearness at the same time
-/

set_option linter.unusedSimpArgs false

namespace FcRetrieval.RegMgr
open FcRetrieval.Ids (Id)
open FcRetrieval.Ring (Fault Ret Hex IsRing keyOf circ)
open FcRetrieval.Register (Record)

/-- What holds at every moment. -/
structure NearOk (m : Mgr) (l : List Hex) (qs : List NearCall) (w : Nears) : Prop where
  ring : ∃ L, IsRing w.mgr.ring L ∧ ∀ x, x ∈ L ↔ x ∈ l ∨ ∃ i q n, qs[i]? = some q ∧ w.stage i = .inside n ∧ x = Ids.toStr q.cid
  rest : ∃ r, w.mgr = { m with ring := r }
  new : ∀ i q n, qs[i]? = some q → w.stage i = .inside n → (n = true ↔ Ids.toStr q.cid ∉ l)
  good : ∀ i q a, qs[i]? = some q → w.stage i = .answered a → ∃ rs, a = .val rs ∧ NearestOf m q rs

theorem nearest_of {m : Mgr} {l : List Hex} (hc : Consistent m l) (hs : m.started = true) (hd : m.gatewayDiscv = true) {q : NearCall}
    {ids : List Hex} (h2 : (ids.length : Int) = min q.num 16) (h3 : ids.Nodup) (h4 : ∀ x ∈ ids, x ∈ l)
    (h5 : ∀ y ∈ ids, ∀ z ∈ l, z ∉ ids → circ (Ids.position q.cid) (keyOf y) ≤ circ (Ids.position q.cid) (keyOf z)) :
    ∃ rs, resolve m ids = some rs ∧ NearestOf m q rs := by
  obtain ⟨rs, h6, h7, h8⟩ := resolve_eq hc h4
  refine ⟨rs, h6, ?_, ?_, ?_, ?_⟩
  · rw [← h2, ← h7]; simp
  · rw [h7]; exact h3
  · intro r hr
    exact (mem_getAllGateways hc hs hd r).2 (h8 r hr)
  · intro r hr g hg hng
    have hql := (mem_getAllGateways hc hs hd g).1 hg
    have hqm : g.nodeID ∈ l := (hc.same _).2 ((mget_isSome_iff _ _).1 (by rw [hql]; rfl))
    refine h5 r.nodeID (by rw [← h7]; exact List.mem_map.2 ⟨r, hr, rfl⟩) g.nodeID hqm ?_
    rw [← h7]
    intro hm
    obtain ⟨s, hs', he⟩ := List.mem_map.1 hm
    have h9 := h8 s hs'
    rw [he, hql] at h9
    injection h9 with h9
    exact hng (h9 ▸ hs')

theorem same_call {l : List Hex} {qs : List NearCall} (hn : qs.Pairwise (fun q q' => q.cid = q'.cid → Ids.toStr q.cid ∈ l)) {i j : Nat} {q q' : NearCall}
    (hi : qs[i]? = some q) (hj : qs[j]? = some q') (h : q.cid = q'.cid) (hx : Ids.toStr q.cid ∉ l) : i = j := by
  obtain ⟨hi', ei⟩ := List.getElem?_eq_some_iff.1 hi
  obtain ⟨hj', ej⟩ := List.getElem?_eq_some_iff.1 hj
  have hp := List.pairwise_iff_getElem.1 hn
  rcases Nat.lt_trichotomy i j with hij | hij | hij
  · exact (hx (by have := hp i j hi' hj' hij (by rw [ei, ej]; exact h); rwa [ei] at this)).elim
  · exact hij
  · exact (hx (by have := hp j i hj' hi' hij (by rw [ei, ej]; exact h.symm); rwa [ej, ← h] at this)).elim

theorem circ_self (k : Nat) : circ k k = 0 := by
  have : Ring.cw k k = 0 := by
    unfold Ring.cw; rw [Nat.add_comm, Nat.add_sub_cancel, Nat.mod_self]
  simp [circ, this]

/-- The expansion around a CID in a ring of gateways `l` and of CIDs that are further away than enough gateways. -/
theorem expandNear {r : Ring.Ring} {L l : List Hex} {x : Hex} (hr : IsRing r L) (hln : l.Nodup) (hx : x ∈ L) (hsub : ∀ y ∈ l, y ∈ L) {num : Int}
    {res : List Hex} (hres : (res = [] ∧ x ∉ l ∧ 1 ≤ num) ∨ (res = [x] ∧ x ∈ l ∧ 2 ≤ num)) (hle : num ≤ l.length)
    (hfar : ∀ y ∈ L, y ∉ l → y ≠ x → num ≤ ((l.filter (fun z => circ (keyOf x) (keyOf z) < circ (keyOf x) (keyOf y))).length : Int)) :
    ∃ ids, Ring.searchAndExpand r x num res = .ok ids ∧ (ids.length : Int) = num ∧ ids.Nodup ∧ (∀ y ∈ ids, y ∈ l) ∧
      ∀ y ∈ ids, ∀ z ∈ l, z ∉ ids → circ (keyOf x) (keyOf y) ≤ circ (keyOf x) (keyOf z) := by
  have hLn := Ring.isRing_nodup hr
  have hlL := nodup_le hln hsub
  have hL2 : 2 ≤ L.length ∧ num ≤ res.length + (L.length - 1 : Nat) ∧ (res.length : Int) < num := by
    rcases hres with ⟨rfl, h1, h2⟩ | ⟨rfl, h1, h2⟩
    · have := nodup_le (List.nodup_cons.2 ⟨h1, hln⟩) (k := L) (by
        intro y hy
        rcases List.mem_cons.1 hy with rfl | hy
        · exact hx
        · exact hsub y hy)
      simp only [List.length_cons, List.length_nil] at this ⊢
      omega
    · simp only [List.length_cons, List.length_nil]
      omega
  obtain ⟨lo, hi, R, M, L', e1, e2, e3, e4, e5, _⟩ := Ring.searchAndExpand_eq hr hx hL2.1 num res
  have hlen' := e5 hL2.2.2 hL2.2.1
  have hper : (x :: (L' ++ R ++ M)).Perm L := by
    rw [e1]
    refine (List.Perm.cons _ ?_).trans List.perm_middle.symm
    have : (L' ++ R ++ M).Perm (R ++ M ++ L') := by
      rw [List.append_assoc]; exact List.perm_append_comm
    rw [← e2] at this
    exact this.trans List.perm_append_comm
  have hnd' := List.nodup_cons.1 (hper.nodup_iff.2 hLn)
  have hmem : ∀ y, y ∈ L' ++ res ++ R ↔ y ∈ L' ++ R ∨ y ∈ res := by
    intro y; simp only [List.mem_append]; grind
  have hidn : (L' ++ res ++ R).Nodup := by
    have h0 := (List.nodup_append.1 hnd'.2).1
    rcases hres with ⟨rfl, h1, _⟩ | ⟨rfl, h1, _⟩
    · simpa using h0
    · rw [List.append_assoc]
      refine (List.perm_middle (l₁ := L') (a := x) (l₂ := R)).nodup_iff.2 (List.nodup_cons.2 ⟨fun h => hnd'.1 (List.mem_append_left _ h), h0⟩)
  have hzin : ∀ z ∈ l, z ∉ L' ++ res ++ R → z ∈ M := by
    intro z hz hzn
    rcases List.mem_cons.1 (hper.mem_iff.2 (hsub z hz)) with rfl | h
    · rcases hres with ⟨rfl, h1, _⟩ | ⟨rfl, h1, _⟩
      · exact absurd hz h1
      · exact absurd ((hmem _).2 (Or.inr (by simp))) hzn
    · rcases List.mem_append.1 h with h | h
      · exact absurd ((hmem z).2 (Or.inl h)) hzn
      · exact h
  have hnear : ∀ y ∈ L' ++ res ++ R, ∀ z ∈ l, z ∉ L' ++ res ++ R → circ (keyOf x) (keyOf y) ≤ circ (keyOf x) (keyOf z) := by
    intro y hy z hz hzn
    rcases (hmem y).1 hy with h | h
    · exact e4 y (List.mem_append.2 (List.mem_append.1 h).symm) z (hzin z hz hzn)
    · rcases hres with ⟨rfl, h1, _⟩ | ⟨rfl, h1, _⟩
      · simp at h
      · simp only [List.mem_cons, List.not_mem_nil, or_false] at h
        rw [h, circ_self]; exact Nat.zero_le _
  refine ⟨_, e3, hlen', hidn, ?_, hnear⟩
  intro y hy
  apply Classical.byContradiction
  intro hyl
  rcases (hmem y).1 hy with h | h
  · have hyL : y ∈ L := hper.mem_iff.1 (List.mem_cons_of_mem _ (List.mem_append_left _ h))
    have hyx : y ≠ x := by
      rintro rfl
      exact hnd'.1 (List.mem_append_left _ h)
    have hf := hfar y hyL hyl hyx
    generalize hF : l.filter _ = F at hf
    have hall : ∀ z ∈ y :: F, z ∈ L' ++ res ++ R := by
      intro z hz
      rcases List.mem_cons.1 hz with rfl | hz
      · exact hy
      · obtain ⟨hzl, hzc⟩ := List.mem_filter.1 (hF ▸ hz)
        have hzc := of_decide_eq_true hzc
        apply Classical.byContradiction
        intro hzn
        have := hnear y hy z hzl hzn
        omega
    have := nodup_le (List.nodup_cons.2 ⟨fun h => hyl (List.mem_filter.1 (hF ▸ h)).1, hF ▸ hln.filter _⟩) hall
    simp only [List.length_cons] at this
    omega
  · rcases hres with ⟨rfl, h1, _⟩ | ⟨rfl, h1, _⟩
    · simp at h
    · simp only [List.mem_cons, List.not_mem_nil, or_false] at h
      exact hyl (h ▸ h1)

theorem nearTick_ok {m : Mgr} {l : List Hex} (hc : Consistent m l) (hs : m.started = true) (hd : m.gatewayDiscv = true) {qs : List NearCall}
    (ha : Apart l qs) {w : Nears} (ho : NearOk m l qs w) (i : Nat) : ∃ w', nearTick qs w i = .ok w' ∧ NearOk m l qs w' := by
  obtain ⟨L, hr, hL⟩ := ho.ring
  obtain ⟨r0, hm0⟩ := ho.rest
  cases hq : qs[i]? with
  | none => exact ⟨w, by simp only [nearTick, hq], ho⟩
  | some q =>
    have hqm : q ∈ qs := List.mem_of_getElem? hq
    have hp := ha.proper q hqm
    have hcan : Canonical (Ids.toStr q.cid) := ⟨q.cid, hp, rfl⟩
    have hv := canonical_valid hcan
    have hk := OfferMgr.keyOf_toStr hp
    have hLc : ∀ x ∈ L, Canonical x := by
      intro x hx
      rcases (hL x).1 hx with h | ⟨j, q', n, h1, _, rfl⟩
      · exact hc.canonical x h
      · exact ⟨q'.cid, ha.proper q' (List.mem_of_getElem? h1), rfl⟩
    have hsp := canonical_spelling hLc hcan
    have hLn := Ring.isRing_nodup hr
    have hln := Ring.isRing_nodup hc.ring
    have hlL : ∀ y ∈ l, y ∈ L := fun y hy => (hL y).2 (Or.inl hy)
    have hother : Ids.toStr q.cid ∉ l → ∀ j q', qs[j]? = some q' → Ids.toStr q.cid = Ids.toStr q'.cid → i = j := by
      intro hx j q' hj he
      exact same_call ha.distinct hq hj ((OfferMgr.toStr_inj hp (ha.proper q' (List.mem_of_getElem? hj))).1 he) hx
    cases hst : w.stage i with
    | answered a => exact ⟨w, by simp only [nearTick, hq, hst], ho⟩
    | begun =>
      obtain ⟨r1, e1, hr1⟩ := Ring.insert_eq hr hv
      have hsz : (r1.size ≠ w.mgr.ring.size) ↔ Ids.toStr q.cid ∉ l := by
        rw [Ring.isRing_size hr1, Ring.isRing_size hr]
        constructor
        · intro h hx
          rw [Ring.addSorted_of_mem (Ring.isRing_sorted hr) ⟨_, hlL _ hx, rfl⟩] at h
          exact h rfl
        · intro hx
          have hnew : Ids.toStr q.cid ∉ L := by
            intro hxL
            rcases (hL _).1 hxL with h | ⟨j, q', n, h1, h2, h3⟩
            · exact hx h
            · have := hother hx j q' h1 h3
              subst this
              rw [hst] at h2; cases h2
          obtain ⟨lo, hi, hlo, hadd, _, _⟩ := Ring.addSorted_new (Ring.isRing_sorted hr) (x := Ids.toStr q.cid) (fun y hy he => hnew (hsp y hy he ▸ hy))
          rw [hadd, hlo]
          simp only [List.length_append, List.length_cons]
          omega
      refine ⟨w.set { w.mgr with ring := r1 } i (.inside (r1.size ≠ w.mgr.ring.size)), ?_, ?_⟩
      · simp only [nearTick, hq, hst, nearBegin, e1, bind, Except.bind, pure, Except.pure]
      · refine ⟨⟨_, hr1, ?_⟩, ⟨r1, by simp only [Nears.set, hm0]⟩, ?_, ?_⟩
        · intro x
          rw [OfferMgr.mem_addSorted_iff hsp, hL]
          constructor
          · rintro (rfl | h | ⟨j, q', n, h1, h2, h3⟩)
            · exact Or.inr ⟨i, q, decide (r1.size ≠ w.mgr.ring.size), hq, by simp only [Nears.set, if_true], rfl⟩
            · exact Or.inl h
            · refine Or.inr ⟨j, q', n, h1, ?_, h3⟩
              have : j ≠ i := by rintro rfl; rw [hst] at h2; cases h2
              simp only [Nears.set, this, if_false, h2]
          · rintro (h | ⟨j, q', n, h1, h2, h3⟩)
            · exact Or.inr (Or.inl h)
            · by_cases hji : j = i
              · subst hji
                rw [hq] at h1; cases h1
                exact Or.inl h3
              · simp only [Nears.set, hji, if_false] at h2
                exact Or.inr (Or.inr ⟨j, q', n, h1, h2, h3⟩)
        · intro j q' n h1 h
          by_cases hji : j = i
          · subst hji
            rw [hq] at h1; cases h1
            simp only [Nears.set, if_true] at h
            injection h with h
            rw [← h, decide_eq_true_iff]; exact hsz
          · simp only [Nears.set, hji, if_false] at h; exact ho.new j q' n h1 h
        · intro j q' a h1 h2
          by_cases hji : j = i
          · simp only [Nears.set, hji, if_true] at h2; cases h2
          · simp only [Nears.set, hji, if_false] at h2; exact ho.good j q' a h1 h2
    | inside n =>
      have hn := ho.new i q n hq hst
      have hx : Ids.toStr q.cid ∈ L := (hL _).2 (Or.inr ⟨i, q, n, hq, hst, rfl⟩)
      have h1 := ha.atLeastOne q hqm
      have hen := ha.enough q hqm
      have hfar : ∀ y ∈ L, y ∉ l → y ≠ Ids.toStr q.cid →
          min q.num 16 ≤ ((l.filter (fun z => circ (keyOf (Ids.toStr q.cid)) (keyOf z) < circ (keyOf (Ids.toStr q.cid)) (keyOf y))).length : Int) := by
        intro y hy hyl hyx
        rcases (hL y).1 hy with h | ⟨j, q', n', j1, j2, rfl⟩
        · exact absurd h hyl
        · have hq'm := List.mem_of_getElem? j1
          rw [hk, OfferMgr.keyOf_toStr (ha.proper q' hq'm)]
          exact ha.apart q hqm q' hq'm (fun he => hyx (by rw [he])) hyl
      -- the members of the ring when this lookup no longer counts
      have hmem' : ∀ (L' : List Hex) (m' : Mgr) (a : Ret (List Record)), (∀ x, x ∈ L' ↔ x ∈ L ∧ (n = true → x ≠ Ids.toStr q.cid)) →
          ∀ x, x ∈ L' ↔ x ∈ l ∨ ∃ j q' n', qs[j]? = some q' ∧ (w.set m' i (.answered a)).stage j = .inside n' ∧ x = Ids.toStr q'.cid := by
        intro L' m' a hL' x
        rw [hL', hL]
        constructor
        · rintro ⟨h | ⟨j, q', n', h1, h2, h3⟩, hne⟩
          · exact Or.inl h
          · by_cases hji : j = i
            · subst hji
              rw [hq] at h1; cases h1
              rw [hst] at h2; cases h2
              cases n with
              | true => exact absurd h3 (hne rfl)
              | false => exact Or.inl (h3 ▸ Classical.byContradiction fun h => by simpa using hn.2 h)
            · exact Or.inr ⟨j, q', n', h1, by simp only [Nears.set, hji, if_false, h2], h3⟩
        · rintro (h | ⟨j, q', n', h1, h2, h3⟩)
          · exact ⟨Or.inl h, fun hnt he => hn.1 hnt (he ▸ h)⟩
          · by_cases hji : j = i
            · simp only [Nears.set, hji, if_true] at h2; cases h2
            · simp only [Nears.set, hji, if_false] at h2
              exact ⟨Or.inr ⟨j, q', n', h1, h2, h3⟩, fun hnt he => hji (hother (hn.1 hnt) j q' h1 (he.symm.trans h3)).symm⟩
      have hend : ∀ (r2 : Ring.Ring) (L' : List Hex) (rs : List Record), IsRing r2 L' → (∀ x, x ∈ L' ↔ x ∈ L ∧ (n = true → x ≠ Ids.toStr q.cid)) →
          NearestOf m q rs → NearOk m l qs (w.set { w.mgr with ring := r2 } i (.answered (.val rs))) := by
        intro r2 L' rs f2 hL' g2
        refine ⟨⟨_, f2, hmem' L' _ _ hL'⟩, ⟨r2, by simp only [Nears.set, hm0]⟩, ?_, ?_⟩
        · intro j q' n' h1 h
          by_cases hji : j = i
          · simp only [Nears.set, hji, if_true] at h; cases h
          · simp only [Nears.set, hji, if_false] at h; exact ho.new j q' n' h1 h
        · intro j q' a h1 h2
          by_cases hji : j = i
          · subst hji
            simp only [Nears.set, if_true] at h2; cases h2
            rw [hq] at h1; cases h1
            exact ⟨rs, rfl, g2⟩
          · simp only [Nears.set, hji, if_false] at h2; exact ho.good j q' a h1 h2
      cases n with
      | true =>
        have hxl := hn.1 rfl
        obtain ⟨ids, e3, hlen, hnd, hids, hnear⟩ := expandNear hr hln hx hlL (num := min q.num 16) (Or.inl ⟨rfl, hxl, by omega⟩) hen hfar
        rw [hk] at hnear
        obtain ⟨rs, g1, g2⟩ := nearest_of hc hs hd (q := q) hlen hnd hids hnear
        obtain ⟨g, hg, hgk⟩ := ha.above q hqm
        have hclean : Ring.CleanRemove L (Ids.toStr q.cid) := by
          have hgx : g ≠ Ids.toStr q.cid := by rintro rfl; exact hxl hg
          have hgL := hlL g hg
          refine ⟨fun h => ?_, fun _ h => ?_⟩
          · obtain ⟨y, rfl⟩ := List.length_eq_one_iff.1 h
            simp only [List.mem_cons, List.not_mem_nil, or_false] at hx
            rw [hx]
          · cases hLe : L with
            | nil => rw [hLe] at h; cases h
            | cons a t =>
              rw [hLe] at h
              cases h
              have hsort := Ring.isRing_sorted hr
              rw [hLe] at hgL hsort
              rcases List.mem_cons.1 hgL with h | hgt
              · exact hgx h
              · have := (List.pairwise_cons.1 hsort).1 g hgt
                rw [hk] at this; omega
        obtain ⟨r2, f1, f2⟩ := Ring.remove_clean hr hv hclean
        refine ⟨w.set { w.mgr with ring := r2 } i (.answered (.val rs)), ?_, hend r2 _ rs f2 (fun x => ?_) g2⟩
        · simp only [nearTick, hq, hst, nearRest, cap_eq, e3, f1, if_true, bind, Except.bind, pure, Except.pure, nearAnswer]
          rw [resolve_same (b := m) (by simp only [hm0]), g1]
        · rw [List.Nodup.mem_erase_iff hLn]
          exact ⟨fun h => ⟨h.2, fun _ => h.1⟩, fun h => ⟨h.2 rfl, h.1⟩⟩
      | false =>
        have hxl : Ids.toStr q.cid ∈ l := Classical.byContradiction fun h => by simpa using hn.2 h
        have hw : w.mgr = { w.mgr with ring := w.mgr.ring } := rfl
        by_cases hone : min q.num 16 = 1
        · obtain ⟨rs, g1, g2⟩ := nearest_of hc hs hd (q := q) (ids := [Ids.toStr q.cid]) (by simp [hone]) (by simp)
            (by simpa using hxl) (by
              intro y hy z _ _
              simp only [List.mem_cons, List.not_mem_nil, or_false] at hy
              rw [hy, hk, circ_self]; exact Nat.zero_le _)
          refine ⟨w.set w.mgr i (.answered (.val rs)), ?_, ?_⟩
          · simp only [nearTick, hq, hst, nearRest, cap_eq, hone, if_true, Bool.false_eq_true, if_false, bind, Except.bind, pure, Except.pure, nearAnswer]
            rw [resolve_same (b := m) (by simp only [hm0]), g1]
          · have := hend w.mgr.ring L rs hr (fun x => ⟨fun h => ⟨h, fun h => by cases h⟩, fun h => h.1⟩) g2
            exact this
        · obtain ⟨ids, e3, hlen, hnd, hids, hnear⟩ := expandNear hr hln hx hlL (num := min q.num 16) (Or.inr ⟨rfl, hxl, by omega⟩) hen hfar
          rw [hk] at hnear
          obtain ⟨rs, g1, g2⟩ := nearest_of hc hs hd (q := q) hlen hnd hids hnear
          refine ⟨w.set w.mgr i (.answered (.val rs)), ?_, ?_⟩
          · simp only [nearTick, hq, hst, nearRest, cap_eq, hone, e3, Bool.false_eq_true, if_false, bind, Except.bind, pure, Except.pure, nearAnswer]
            rw [resolve_same (b := m) (by simp only [hm0]), g1]
          · have := hend w.mgr.ring L rs hr (fun x => ⟨fun h => ⟨h, fun h => by cases h⟩, fun h => h.1⟩) g2
            exact this

/-- How many parts a lookup has done. -/
def NearStage.done : NearStage → Nat
  | .begun => 0
  | .inside _ => 1
  | .answered _ => 2

theorem nearTick_done {qs : List NearCall} {w w' : Nears} {i : Nat} (h : nearTick qs w i = .ok w') {j : Nat} (hj : j < qs.length) :
    (w'.stage j).done = min 2 ((w.stage j).done + if j = i then 1 else 0) := by
  have hle : (w.stage j).done ≤ 2 := by cases w.stage j <;> simp [NearStage.done]
  by_cases hji : j = i
  · subst hji
    simp only [nearTick, List.getElem?_eq_getElem hj] at h
    cases hst : w.stage j with
    | begun =>
      simp only [hst, bind, Except.bind] at h
      split at h
      · cases h
      · cases h; simp [Nears.set, NearStage.done]
    | inside n =>
      simp only [hst, bind, Except.bind] at h
      split at h
      · cases h
      · cases h; simp [Nears.set, NearStage.done]
    | answered a =>
      simp only [hst] at h
      cases h; simp [hst, NearStage.done]
  · have : w'.stage j = w.stage j := by
      unfold nearTick at h
      split at h
      · cases h; rfl
      · split at h
        · simp only [bind, Except.bind] at h
          split at h
          · cases h
          · cases h; simp [Nears.set, hji]
        · simp only [bind, Except.bind] at h
          split at h
          · cases h
          · cases h; simp [Nears.set, hji]
        · cases h; rfl
    rw [this, if_neg hji]; omega

theorem nearPlay_ok {m : Mgr} {l : List Hex} (hc : Consistent m l) (hs : m.started = true) (hd : m.gatewayDiscv = true) {qs : List NearCall}
    (ha : Apart l qs) : ∀ (sched : List Nat) {w : Nears}, NearOk m l qs w → ∃ w', nearPlay qs w sched = .ok w' ∧ NearOk m l qs w' ∧
      ∀ j, j < qs.length → (w'.stage j).done = min 2 ((w.stage j).done + sched.count j)
  | [], w, ho => ⟨w, rfl, ho, fun j _ => by
      have hle : (w.stage j).done ≤ 2 := by cases w.stage j <;> simp [NearStage.done]
      simp only [List.count_nil]; omega⟩
  | i :: sched, w, ho => by
    obtain ⟨w1, h1, h2⟩ := nearTick_ok hc hs hd ha ho i
    obtain ⟨w2, h3, h4, h5⟩ := nearPlay_ok hc hs hd ha sched h2
    refine ⟨w2, by simp only [nearPlay, h1, bind, Except.bind, h3], h4, fun j hj => ?_⟩
    rw [h5 j hj, nearTick_done h1 hj, List.count_cons]
    by_cases hji : j = i
    · subst hji; simp; omega
    · have : ¬ i = j := fun h => hji h.symm
      simp [hji, this]; omega

/-- **C94 (partial).** Any number of lookups run at the same time, their parts in any order.  When the lookups are apart, none fails; whatever
has been answered by then is what the lookup would answer alone, the nearest gateways; and once each lookup has had its two turns all are
answered, and the table and the ring are as they were.  Missing: lookups near one another (`C94_interference_refuted` for what they do to one
another), CIDs below all gateways (`C44_cid_left_behind_refuted`), and interruptions inside a part. -/
theorem C94_many_partial {m : Mgr} {l : List Hex} (hc : Consistent m l) (hs : m.started = true) (hd : m.gatewayDiscv = true) {qs : List NearCall}
    (ha : Apart l qs) (sched : List Nat) :
    ∃ w, nearPlay qs ⟨m, fun _ => .begun⟩ sched = .ok w ∧
      (∀ i q a, qs[i]? = some q → w.stage i = .answered a → ∃ rs, a = .val rs ∧ NearestOf m q rs) ∧
      w.mgr.gateways = m.gateways ∧
      ((∀ i, i < qs.length → 2 ≤ sched.count i) →
        (∀ i q, qs[i]? = some q → ∃ rs, w.stage i = .answered (.val rs) ∧ NearestOf m q rs) ∧ Consistent w.mgr l) := by
  obtain ⟨w, h1, h2, h3⟩ := nearPlay_ok hc hs hd ha sched (w := ⟨m, fun _ => .begun⟩)
    ⟨⟨l, hc.ring, fun x => by simp⟩, ⟨m.ring, rfl⟩, (fun _ _ _ _ h => by cases h), (fun _ _ _ _ h => by cases h)⟩
  obtain ⟨r, hr⟩ := h2.rest
  refine ⟨w, h1, h2.good, by rw [hr], fun hall => ?_⟩
  have hans : ∀ i q, qs[i]? = some q → ∃ a, w.stage i = .answered a := by
    intro i q hq
    obtain ⟨hi, _⟩ := List.getElem?_eq_some_iff.1 hq
    have hd2 := h3 i hi
    have := hall i hi
    cases hst : w.stage i with
    | begun => rw [hst] at hd2; simp only [NearStage.done] at hd2; omega
    | inside n => rw [hst] at hd2; simp only [NearStage.done] at hd2; omega
    | answered a => exact ⟨a, rfl⟩
  refine ⟨fun i q hq => ?_, ?_⟩
  · obtain ⟨a, ha'⟩ := hans i q hq
    obtain ⟨rs, rfl, hrs⟩ := h2.good i q a hq ha'
    exact ⟨rs, ha', hrs⟩
  · obtain ⟨L, hL, hmem⟩ := h2.ring
    have hsame : ∀ x, x ∈ L ↔ x ∈ l := by
      intro x
      rw [hmem]
      constructor
      · rintro (h | ⟨i, q, n, j1, j2, _⟩)
        · exact h
        · obtain ⟨a, ha'⟩ := hans i q j1
          rw [ha'] at j2; cases j2
      · exact Or.inl
    have : L = l := by
      have hperm : L.Perm l := (List.perm_ext_iff_of_nodup (Ring.isRing_nodup hL) (Ring.isRing_nodup hc.ring)).2 hsame
      exact hperm.eq_of_pairwise (le := fun a b => keyOf a < keyOf b) (fun a b _ _ h1 h2 => by omega) (Ring.isRing_sorted hL) (Ring.isRing_sorted hc.ring)
    rw [hr] at hL ⊢
    exact ⟨this ▸ hL, hc.same, hc.nodup, hc.named, hc.canonical⟩

/-- Lookups for 1212… and for 4545…, two gateways each, and two for 3333…, one gateway and three gateways. -/
def exCalls : List NearCall := [⟨exId 0x12, 2⟩, ⟨exId 0x45, 2⟩, ⟨exId 0x33, 1⟩, ⟨exId 0x33, 3⟩]

/-- Gateways 1111…, 2222…, 3333…, 4444…: the lookups are apart (3333… is a gateway). -/
example : ∃ m l, Consistent m l ∧ m.started = true ∧ m.gatewayDiscv = true ∧ Apart l exCalls ∧ ∀ i, i < exCalls.length → 2 ≤ [0, 1, 2, 3, 2, 1, 3, 0].count i := by
  obtain ⟨m, _, h2, h3, h4⟩ := exMgr_consistent
  refine ⟨m, _, h4, h2, h3, ⟨?_, ?_, ?_, ?_, ?_, ?_⟩, by decide⟩
  · intro q hq
    simp only [exCalls, List.mem_cons, List.not_mem_nil, or_false] at hq
    rcases hq with rfl | rfl | rfl | rfl <;> exact Merkle.exId_proper _
  · decide +kernel
  · decide +kernel
  · decide +kernel
  · decide +kernel
  · decide +kernel

end FcRetrieval.RegMgr
