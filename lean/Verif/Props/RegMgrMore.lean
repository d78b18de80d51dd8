import Verif.Props.RegMgr
/-!
# Properties of the register manager: where nearness lookups go wrong, shutdown and restart (C44, C72, C91, C93)
-/

set_option linter.unusedSimpArgs false

namespace FcRetrieval.RegMgr
open FcRetrieval.Ids (Id)
open FcRetrieval.Ring (Fault Hex IsRing validateInput keyOf circ Ret)
open FcRetrieval.Register (Record Service Kind)

/-- A started manager that heard of these gateways. -/
def exMgr (cs : List Char) : Except Fault Mgr := hearAll (fresh true true) [.gateways (some (cs.map (fun c => some (exRec c "AU"))))]

/-- The identifier `dd…d`. -/
def exId (n : UInt8) : Id := List.replicate 32 n

theorem exMgr_consistent : ∃ m, exMgr ['3', '1', '2', '4'] = .ok m ∧ m.started = true ∧ m.gatewayDiscv = true ∧
    Consistent m [Ring.rep '1', Ring.rep '2', Ring.rep '3', Ring.rep '4'] := by
  have hn : NoNulls [.gateways (some (['3', '1', '2', '4'].map (fun c => some (exRec c "AU"))))] := by
    intro e he a ha l hl
    simp only [List.mem_cons, List.not_mem_nil, or_false] at he
    subst he
    rcases ha with ha | ha <;> cases ha
    cases hl
    simp
  have hcan : ∀ r ∈ gatewayReports [.gateways (some (['3', '1', '2', '4'].map (fun c => some (exRec c "AU"))))], Canonical r.nodeID := by
    intro r hr
    simp only [gatewayReports, records, Option.getD_some, List.map_cons, List.map_nil, List.filterMap_cons, List.filterMap_nil, id_eq,
      List.append_nil, List.mem_cons, List.not_mem_nil, or_false] at hr
    rcases hr with rfl | rfl | rfl | rfl
    · exact canonical_rep '3' 0x33 (by decide +kernel)
    · exact canonical_rep '1' 0x11 (by decide +kernel)
    · exact canonical_rep '2' 0x22 (by decide +kernel)
    · exact canonical_rep '4' 0x44 (by decide +kernel)
  obtain ⟨m, h1, hs, hg, _, ht, _, h2, _⟩ := hearAll_from _ (m := fresh true true) rfl rfl rfl hn (fresh_ring _ _) (fresh_covered _ _)
  obtain ⟨m', l, h1', hc, _⟩ := C43_ring_agrees_partial _ hn hcan
  rw [h1] at h1'
  cases h1'
  have hl : l = [Ring.rep '1', Ring.rep '2', Ring.rep '3', Ring.rep '4'] := by
    have e : addAll ((gatewayReports [.gateways (some (['3', '1', '2', '4'].map (fun c => some (exRec c "AU"))))]).map (·.nodeID)) [] =
        [Ring.rep '1', Ring.rep '2', Ring.rep '3', Ring.rep '4'] := by decide +kernel
    rw [e] at h2
    have d1 := Ring.dump_eq h2
    have d2 := Ring.dump_eq hc.ring
    rw [d1] at d2
    injection d2 with d2
    exact d2.symm
  rw [hl] at hc
  exact ⟨m, h1, hs, hg, hc⟩

/-! ## C44, the cases that fail -/

example : ∃ m l, Consistent m l ∧ m.started = true ∧ m.gatewayDiscv = true ∧ Ids.Proper (exId 0x35) ∧ min (3 : Int) 16 ≤ l.length ∧
    l.head? ≠ some (Ids.toStr (exId 0x33)) := by
  obtain ⟨m, _, h2, h3, h4⟩ := exMgr_consistent
  exact ⟨m, _, h4, h2, h3, rfl, by decide, by decide +kernel⟩

/-- **C44 (refuted)**, fewer gateways than asked for: the first gateway of the ring is always left out (unless the CID is its
identifier). -/
theorem C44_few_refuted {m : Mgr} {y : Hex} {l : List Hex} (hc : Consistent m (y :: l)) (hs : m.started = true) (hd : m.gatewayDiscv = true)
    {cid : Id} (hp : Ids.Proper cid) (hy : y ≠ Ids.toStr cid) {num : Int} (hnum : min num 16 > (l.length + 1 : Nat)) :
    ∃ m' rs, getGatewaysNear m cid num none = .ok (m', .val rs) ∧ rs.map (·.nodeID) = l ∧
      ∃ r ∈ getAllGateways m, r.nodeID = y ∧ r ∉ rs := by
  have hcan : Canonical (Ids.toStr cid) := ⟨cid, hp, rfl⟩
  have hv := canonical_valid hcan
  have h1 := Ring.C66_getClosest_more_partial (x := Ids.toStr cid) (num := min num 16) hc.ring hv (by simpa using hnum)
  rw [if_neg hy] at h1
  obtain ⟨rs, h6, h7, h8⟩ := resolve_eq hc (ids := l) (fun x hx => by simp [hx])
  refine ⟨m, rs, ?_, h7, ?_⟩
  · simp only [getGatewaysNear, cap_eq, hd, h1, h6, bind, Except.bind, pure, Except.pure, Bool.true_eq_false, false_and, if_false]
    rw [← hd]
  · obtain ⟨r, hr, hrn⟩ := consistent_table hc (x := y) (by simp)
    refine ⟨r, (mem_getAllGateways hc hs hd r).2 (by rw [hrn]; exact hr), hrn, fun hm => ?_⟩
    have hnd := Ring.isRing_nodup hc.ring
    rw [List.nodup_cons] at hnd
    apply hnd.1
    rw [← h7, ← hrn]
    exact List.mem_map.2 ⟨r, hm, rfl⟩

/-- What the lookup lists, by identifier. -/
def namesOf : Ret (List Record) → Ret (List Hex)
  | .err => .err
  | .val rs => .val (rs.map (·.nodeID))

/-- **C44 (refuted)**, exclusion: the two gateways nearest to `44…4` except `11…1`, among `11…1`, `22…2`, `33…3`: the answer has `11…1`. -/
theorem C44_excluded_refuted : ((do
    let m ← exMgr ['1', '2', '3']
    let (_, res) ← getGatewaysNear m (exId 0x44) 2 (some (exId 0x11))
    return namesOf res) : Except Fault (Ret (List Hex))) = .ok (.val [Ring.rep '1', Ring.rep '2']) := by
  decide +kernel

/-- **C44 (refuted)**, a CID below all gateways stays on the ring after the lookup … -/
theorem C44_cid_left_behind_refuted {m : Mgr} {l : List Hex} (hc : Consistent m l) (hd : m.gatewayDiscv = true) {cid : Id}
    (hp : Ids.Proper cid) {num : Int} (hn : 1 ≤ num) (hle : min num 16 ≤ l.length) (hl : 2 ≤ l.length)
    (hlow : ∀ y ∈ l, Ids.position cid < keyOf y) :
    ∃ m' rs, getGatewaysNear m cid num none = .ok (m', .val rs) ∧ Ring.dump m'.ring = .ok (l ++ [Ids.toStr cid]) ∧
      mget m'.gateways (Ids.toStr cid) = none := by
  have hcan : Canonical (Ids.toStr cid) := ⟨cid, hp, rfl⟩
  have hv := canonical_valid hcan
  have hk := OfferMgr.keyOf_toStr hp
  have hsp := canonical_spelling hc.canonical hcan
  obtain ⟨r', ids, h1, h2, h3, h4, h5, _⟩ := Ring.C03_getClosest_nearest hc.ring hv hsp (num := min num 16) (by omega) hle
  obtain ⟨r'', ids', h1', hdump⟩ := Ring.C04_getClosest_leaves_target hc.ring hv (num := min num 16) (by omega) hle hl
    (by intro y hy; rw [hk]; exact hlow y hy)
  rw [h1] at h1'
  cases h1'
  obtain ⟨rs, h6, h7, h8⟩ := resolve_eq hc h4
  refine ⟨{ m with ring := r' }, rs, ?_, hdump, ?_⟩
  · simp only [getGatewaysNear, cap_eq, hd, h1, h6, bind, Except.bind, pure, Except.pure, Bool.true_eq_false, false_and, if_false]
  · rw [mget_none_iff]
    intro hm
    have := hlow _ ((hc.same _).2 hm)
    rw [hk] at this
    omega

example : ∃ m l, Consistent m l ∧ m.gatewayDiscv = true ∧ 2 ≤ l.length ∧ ∀ y ∈ l, Ids.position (exId 0) < keyOf y := by
  obtain ⟨m, _, _, h3, h4⟩ := exMgr_consistent
  exact ⟨m, _, h4, h3, by decide, by decide +kernel⟩

/-- … and spoils later lookups: with four gateways, a lookup for `00…0` makes the next lookup for all four fail. -/
theorem C44_spoiled_refuted : ((do
    let m ← exMgr ['1', '2', '3', '4']
    let (_, before) ← getGatewaysNear m (exId 0x15) 4 none
    let (m, _) ← getGatewaysNear m (exId 0) 1 none
    let (_, res) ← getGatewaysNear m (exId 0x15) 4 none
    return (namesOf before, namesOf res)) : Except Fault (Ret (List Hex) × Ret (List Hex))) =
    .ok (.val [Ring.rep '1', Ring.rep '2', Ring.rep '3', Ring.rep '4'], .err) := by
  decide +kernel

/-- **C44 (refuted)**, negative counts are not limited to 16: every gateway is returned, however many there are. -/
theorem C44_negative_refuted {m : Mgr} {l : List Hex} (hc : Consistent m l) (hd : m.gatewayDiscv = true) {cid : Id} (hp : Ids.Proper cid)
    (hm : Ids.toStr cid ∈ l) (hl : 2 ≤ l.length) {num : Int} (hn : num < 0) :
    ∃ m' rs, getGatewaysNear m cid num none = .ok (m', .val rs) ∧ rs.length = l.length ∧ ∀ r, r ∈ rs ↔ mget m.gateways r.nodeID = some r := by
  have hcan : Canonical (Ids.toStr cid) := ⟨cid, hp, rfl⟩
  have hv := canonical_valid hcan
  obtain ⟨r1, hins, hr1⟩ := Ring.insert_eq hc.ring hv
  rw [Ring.addSorted_of_mem (Ring.isRing_sorted hc.ring) ⟨_, hm, rfl⟩] at hr1
  have hsz := Ring.isRing_size hc.ring
  have hsz1 := Ring.isRing_size hr1
  obtain ⟨lo, hi, R, M, L, h1, h2, h3, _, _, h6, -⟩ := Ring.searchAndExpand_eq hr1 hm hl num [Ids.toStr cid]
  have hM := h6 (by simp; omega)
  subst hM
  have hbody : Ring.closestBody m.ring (Ids.toStr cid) num = .ok (r1, L ++ [Ids.toStr cid] ++ R) := by
    have hnum : ¬ num > (l.length : Int) := by omega
    have hn1 : ¬ num = 1 := by omega
    simp only [Ring.closestBody, Ring.insertSearchRemove, hins, bind, Except.bind, pure, Except.pure, hsz, hsz1, if_true, h3,
      if_neg hn1, if_neg hnum]
  have hget := Ring.getClosest_noExclude hc.ring hv (by intro e; rw [e] at hl; simp at hl) (by omega) hbody
  have hperm : (L ++ [Ids.toStr cid] ++ R).Perm l := by
    rw [h1]
    have h2' : (hi ++ lo).Perm (R ++ L) := by rw [h2]; simp
    have e1 : (L ++ [Ids.toStr cid] ++ R).Perm (Ids.toStr cid :: (R ++ L)) := by
      rw [List.append_assoc]
      refine List.perm_append_comm.trans ?_
      simp
    have e2 : (lo ++ Ids.toStr cid :: hi).Perm (Ids.toStr cid :: (hi ++ lo)) := by
      refine List.perm_append_comm.trans ?_
      simp
    exact e1.trans ((List.Perm.cons _ h2'.symm).trans e2.symm)
  obtain ⟨rs, h7, h8, h9⟩ := resolve_eq hc (ids := L ++ [Ids.toStr cid] ++ R) (fun x hx => hperm.mem_iff.1 hx)
  have hcap : ¬ num > 16 := by omega
  refine ⟨{ m with ring := r1 }, rs, ?_, ?_, ?_⟩
  · simp only [getGatewaysNear, if_neg hcap, hd, hget, h7, bind, Except.bind, pure, Except.pure, Bool.true_eq_false, false_and, if_false]
  · rw [← hperm.length_eq, ← h8]; simp
  · intro r
    refine ⟨h9 r, fun h => ?_⟩
    have hr : r.nodeID ∈ l := (hc.same _).2 ((mget_isSome_iff _ _).1 (by rw [h]; rfl))
    rw [← hperm.mem_iff, ← h8] at hr
    obtain ⟨r', hr', he⟩ := List.mem_map.1 hr
    have := h9 r' hr'
    rw [he, h] at this
    injection this with this
    rw [this]; exact hr'

example : ∃ m l, Consistent m l ∧ m.gatewayDiscv = true ∧ Ids.toStr (exId 0x22) ∈ l ∧ 2 ≤ l.length := by
  obtain ⟨m, _, _, h3, h4⟩ := exMgr_consistent
  exact ⟨m, _, h4, h3, by decide +kernel, by decide⟩

/-- A nearness lookup on a manager without gateway discovery ends the process. -/
theorem C44_no_discovery_refuted (m : Mgr) (hd : m.gatewayDiscv = false) (cid : Id) (hp : Ids.Proper cid) (num : Int) (hn : num ≠ 0) :
    getGatewaysNear m cid num none = .error .panic := by
  have hv := canonical_valid ⟨cid, hp, rfl⟩
  have : (if num > 16 then (16 : Int) else num) ≠ 0 := by split <;> omega
  simp [getGatewaysNear, hd, hv, this, bind, Except.bind, throw, throwThe, MonadExceptOf.throw]

/-! ## C93 -/

/-- **C93 (refuted).** In a network of 4 to 16 gateways, every gateway but the smallest gets the same kind of range: from the second smallest
other gateway to the largest other gateway, wherever its own identifier lies. -/
theorem C93_range_exact {m : Mgr} {y a b : Hex} {l mid : List Hex} (hc : Consistent m l) (hd : m.gatewayDiscv = true) {id : Id}
    (hp : Ids.Proper id) (hin : Ids.toStr id ∈ l) (hne : l.head? ≠ some (Ids.toStr id)) (hlen : l.length ≤ 16)
    (hl : l.erase (Ids.toStr id) = y :: a :: (mid ++ [b])) :
    ∃ m' lo hi, getGatewayCIDRange m id = .ok (m', .val (lo, hi)) ∧ Ids.toStr lo = a ∧ Ids.toStr hi = b := by
  have hcan : Canonical (Ids.toStr id) := ⟨id, hp, rfl⟩
  have hv := canonical_valid hcan
  have hnd := Ring.isRing_nodup hc.ring
  have hlen1 : (l.erase (Ids.toStr id)).length = l.length - 1 := List.length_erase_of_mem hin
  have hlen2 : 4 ≤ l.length := by
    rw [hl] at hlen1; simp at hlen1; omega
  have hclean : Ring.CleanRemove l (Ids.toStr id) := ⟨fun h => by omega, fun _ => hne⟩
  have hmem : ∀ x, x ∈ l.erase (Ids.toStr id) ↔ x ≠ Ids.toStr id ∧ x ∈ l := fun x => hnd.mem_erase_iff
  have hyne : y ≠ Ids.toStr id := ((hmem y).1 (by rw [hl]; simp)).1
  obtain ⟨r1, hrem, hr1⟩ := Ring.remove_clean hc.ring hv hclean
  have hbody : ∀ q, IsRing q (l.erase (Ids.toStr id)) → Ring.remove m.ring (Ids.toStr id) = .ok q →
      Ring.closestBody q (Ids.toStr id) 16 = .ok (r1, a :: (mid ++ [b])) := by
    intro q hq h2
    rw [hrem] at h2
    cases h2
    rw [hl] at hr1
    have := Ring.closestBody_more (x := Ids.toStr id) (num := 16) hr1 (by rw [hl] at hlen1; simp at hlen1 ⊢; omega)
    rw [if_neg hyne] at this
    exact this
  obtain ⟨r3, hget, _⟩ := (Ring.getClosest_exclude hc.ring hv hv (by omega) hclean (by decide) hbody).1 hr1
  have hsub : ∀ x ∈ a :: (mid ++ [b]), x ∈ l := by
    intro x hx
    exact ((hmem x).1 (by rw [hl]; exact List.mem_cons_of_mem _ hx)).2
  obtain ⟨rs, h6, h7, h8⟩ := resolve_eq hc hsub
  obtain ⟨lo, hlo, ha⟩ := hc.canonical a (hsub a (by simp))
  obtain ⟨hi, hhi, hb⟩ := hc.canonical b (hsub b (by simp))
  refine ⟨{ m with ring := r3 }, lo, hi, ?_, ha.symm, hb.symm⟩
  have hnear : getGatewaysNear m id 16 (some id) = .ok ({ m with ring := r3 }, .val rs) := by
    simp only [getGatewaysNear, hd, hget, h6, bind, Except.bind, pure, Except.pure, Bool.true_eq_false, false_and, if_false,
      show ¬ ((16 : Int) > 16) by decide]
  have hhead : (rs.map (·.nodeID)).head? = some a := by rw [h7]; rfl
  have hlast : (rs.map (·.nodeID)).getLast? = some b := by
    rw [h7]
    simp [List.getLast?_cons, List.getLast?_append]
  rw [List.head?_map] at hhead
  rw [List.getLast?_map] at hlast
  obtain ⟨ra, hra, hra'⟩ := Option.map_eq_some_iff.1 hhead
  obtain ⟨rb, hrb, hrb'⟩ := Option.map_eq_some_iff.1 hlast
  have hl2 : ¬ rs.length < 2 := by
    have : rs.length = (a :: (mid ++ [b])).length := by rw [← h7]; simp
    rw [this]; simp
  simp only [getGatewayCIDRange, Ids.fromHex_toStr hp, hnear, bind, Except.bind, pure, Except.pure, hra, hrb, if_neg hl2, hra', hrb', ha, hb,
    Ids.fromHex_toStr hlo, Ids.fromHex_toStr hhi]

example : ∃ m l, Consistent m l ∧ m.gatewayDiscv = true ∧ Ids.toStr (exId 0x44) ∈ l ∧ l.head? ≠ some (Ids.toStr (exId 0x44)) ∧
    l.erase (Ids.toStr (exId 0x44)) = Ring.rep '1' :: Ring.rep '2' :: ([] ++ [Ring.rep '3']) := by
  obtain ⟨m, _, _, h3, h4⟩ := exMgr_consistent
  exact ⟨m, _, h4, h3, by decide +kernel, by decide +kernel, by decide +kernel⟩

/-- **C93 (refuted)**: the largest of `11…1`, `22…2`, `33…3`, `44…4` gets the range from `22…2` to `33…3`, which does not contain it. -/
theorem C93_contains_itself_refuted : ∃ m m' lo hi, exMgr ['3', '1', '2', '4'] = .ok m ∧
    getGatewayCIDRange m (exId 0x44) = .ok (m', .val (lo, hi)) ∧
    ¬ Ring.cw (Ids.position lo) (Ids.position (exId 0x44)) ≤ Ring.cw (Ids.position lo) (Ids.position hi) := by
  obtain ⟨m, h1, _, h3, h4⟩ := exMgr_consistent
  obtain ⟨m', lo, hi, h5, h6, h7⟩ := C93_range_exact (y := Ring.rep '1') (a := Ring.rep '2') (b := Ring.rep '3') (mid := []) h4 h3
    (id := exId 0x44) rfl (by decide +kernel) (by decide +kernel) (by decide) (by decide +kernel)
  refine ⟨m, m', lo, hi, h1, h5, ?_⟩
  have e1 : lo = exId 0x22 := by
    have : Ids.fromHex (Ids.toStr lo) = some (exId 0x22) := by rw [h6]; decide +kernel
    have hp : Ids.Proper lo := by
      unfold Ids.Proper
      have : (Ids.toStr lo).length = 64 := by rw [h6]; decide +kernel
      unfold Ids.toStr at this
      simp only at this
      split at this
      · simp at this
      · rw [hexEncode_length] at this; omega
    rw [Ids.fromHex_toStr hp] at this
    injection this
  have e2 : hi = exId 0x33 := by
    have : Ids.fromHex (Ids.toStr hi) = some (exId 0x33) := by rw [h7]; decide +kernel
    have hp : Ids.Proper hi := by
      unfold Ids.Proper
      have : (Ids.toStr hi).length = 64 := by rw [h7]; decide +kernel
      unfold Ids.toStr at this
      simp only at this
      split at this
      · simp at this
      · rw [hexEncode_length] at this; omega
    rw [Ids.fromHex_toStr hp] at this
    injection this
  subst e1 e2
  decide +kernel

/-! ## C43, end to end -/

/-- **C43 (partial)**, with the register of this repository: a node that starts after any history of registrations and deletions lists
exactly the gateways and providers that are registered at that moment, with their latest data. -/
theorem C43_follows_register_partial (ops : List Register.Op) :
    ∃ m, start (new true true) (Register.readListing .gateway (Register.list (Register.after ops) .gateway))
        (Register.readListing .provider (Register.list (Register.after ops) .provider)) = .ok (m, true) ∧
      (∀ r, r ∈ getAllGateways m ↔ Register.latest .gateway r.nodeID ops = some r) ∧
      (∀ r, r ∈ getAllProviders m ↔ Register.latest .provider r.nodeID ops = some r) := by
  obtain ⟨gs, hg, hgn, hgm⟩ := Register.C65_listing ops .gateway
  obtain ⟨ps, hp, hpn, hpm⟩ := Register.C65_listing ops .provider
  have nonull : ∀ l : List Record, NoNull (some (l.map some)) := by
    intro l l' h
    injection h with h
    rw [← h]; simp
  have hn : NoNulls [.gateways (some (gs.map some)), .providers (some (ps.map some))] := by
    intro e he a ha
    simp only [List.mem_cons, List.not_mem_nil, or_false] at he
    rcases he with rfl | rfl <;> rcases ha with ha | ha <;> cases ha <;> exact nonull _
  obtain ⟨m, l, h1, h2, _, h3, _⟩ := C43_latest_partial _ hn
  have hst : start (new true true) (some (gs.map some)) (some (ps.map some)) = .ok (m, true) := by
    have := refresh_eq (m := fresh true true) (p := some (ps.map some)) rfl rfl rfl (nonull gs) (fresh_ring _ _) (fresh_covered _ _)
    rw [h1] at this
    have h : ({ new true true with started := true } : Mgr) = fresh true true := rfl
    simp only [start, h, this, bind, Except.bind, pure, Except.pure]
    rfl
  have last : ∀ (l : List Record), (l.map (·.nodeID)).Nodup → ∀ r, latest r.nodeID l = some r ↔ r ∈ l := by
    intro l hl r
    constructor
    · exact fun h => (latest_some h).1
    · intro h
      obtain ⟨r', h'⟩ := Option.isSome_iff_exists.1 (latest_isSome.2 ⟨r, h, rfl⟩)
      obtain ⟨hm, he⟩ := latest_some h'
      rw [h']
      congr
      obtain ⟨i, hi, rfl⟩ := List.getElem_of_mem hm
      obtain ⟨j, hj, rfl⟩ := List.getElem_of_mem h
      have := List.pairwise_iff_getElem.mp hl
      rcases Nat.lt_trichotomy i j with hij | hij | hij
      · exact absurd (by rw [List.getElem_map, List.getElem_map]; exact he) (this i j (by simpa using hi) (by simpa using hj) hij)
      · subst hij; rfl
      · exact absurd (by rw [List.getElem_map, List.getElem_map]; exact he.symm) (this j i (by simpa using hj) (by simpa using hi) hij)
  refine ⟨m, by rw [hg, hp]; exact hst, ?_, ?_⟩
  · intro r
    rw [h2, ← hgm]
    have : gatewayReports [.gateways (some (gs.map some)), .providers (some (ps.map some))] = gs := by
      simp [gatewayReports, records]
    rw [this]
    exact last gs hgn r
  · intro r
    rw [h3, ← hpm]
    have : providerReports [.gateways (some (gs.map some)), .providers (some (ps.map some))] = ps := by
      simp [providerReports, records]
    rw [this]
    exact last ps hpn r

example : Register.latest .gateway Register.exRecord.nodeID Register.exOps = some Register.exRecord := by decide +kernel

/-! ## C72 -/

theorem shutdown_eq {m : Mgr} (s : Service) (hs : m.started = true) (hg : m.gatewayDiscv = true) (hp : m.providerDiscv = true) :
    shutdown m s = ({ m with gateways := [], providers := [], started := false }, Register.deleteAll (Register.deleteAll s .gateway) .provider) := by
  simp [shutdown, hs, hg, hp]

/-- The manager after shutdown and a start that hears these answers. -/
theorem restart_spec {m : Mgr} {l : List Hex} (hr : IsRing m.ring l) (hs : m.started = true) (hg : m.gatewayDiscv = true)
    (hp : m.providerDiscv = true) (s : Service) (g p : Answer) (hng : NoNull g) (hnp : NoNull p) :
    ∃ m', start (shutdown m s).1 g p = .ok (m', true) ∧ m'.started = true ∧ m'.gateways = tableAll [] (records g) ∧
      IsRing m'.ring (addAll ((records g).map (·.nodeID)) l) := by
  rw [shutdown_eq s hs hg hp]
  have hn' : NoNulls [.gateways g, .providers p] := by
    intro e he a ha
    simp only [List.mem_cons, List.not_mem_nil, or_false] at he
    rcases he with rfl | rfl <;> rcases ha with ha | ha <;> cases ha <;> assumption
  have hcov : Covered { m with gateways := [], providers := [], started := true } l := by
    intro x hx; simp [mkeys] at hx
  obtain ⟨m', h1, h2, _, _, h3, _, h4, _⟩ := hearAll_from (m := { m with gateways := [], providers := [], started := true })
    [.gateways g, .providers p] rfl hg hp hn' hr hcov
  refine ⟨m', ?_, h2, by simpa [gatewayReports] using h3, by simpa [gatewayReports] using h4⟩
  have hrf := refresh_eq (m := { m with gateways := [], providers := [], started := true }) (p := p) rfl hg hp hng hr hcov
  rw [h1] at hrf
  simp only [start, Bool.false_eq_true, if_false, hrf, bind, Except.bind, pure, Except.pure]

/-- **C72 (refuted).** A gateway that was known before a shutdown and is not reported after the restart is on the ring and not in the
table. -/
theorem C72_restart_refuted {m : Mgr} {l : List Hex} (hr : IsRing m.ring l) (hs : m.started = true) (hg : m.gatewayDiscv = true)
    (hp : m.providerDiscv = true) (s : Service) (g p : Answer) (hng : NoNull g) (hnp : NoNull p) {x : Hex} (hx : x ∈ l)
    (hgone : ∀ r ∈ records g, r.nodeID ≠ x) :
    ∃ m' l', start (shutdown m s).1 g p = .ok (m', true) ∧ IsRing m'.ring l' ∧ x ∈ l' ∧ ∀ r ∈ getAllGateways m', r.nodeID ≠ x := by
  obtain ⟨m', h1, h2, h3, h4⟩ := restart_spec hr hs hg hp s g p hng hnp
  obtain ⟨_, h6, _⟩ := Ring.foldl_added ((records g).map (·.nodeID)) l
  refine ⟨m', _, h1, h4, h6 x hx, ?_⟩
  intro r hr' he
  unfold getAllGateways at hr'
  split at hr'
  · simp at hr'
  · rw [h3] at hr'
    obtain ⟨⟨k, r'⟩, hp', rfl⟩ := List.mem_map.1 hr'
    have hk := (mem_mget (tableAll_nodup (records g) (by simp [mkeys]))).1 hp'
    rw [mget_tableAll] at hk
    simp only [mget, Option.or_none, List.find?_nil, Option.map_none] at hk
    exact hgone r' (latest_some hk).1 he

/-- After the restart lookups fail: with four gateways known before and two after, a lookup of two gives an error. -/
theorem C72_lookups_fail_refuted : ((do
    let m ← exMgr ['1', '2', '3', '4']
    let (m, _) ← start (shutdown m ⟨[], []⟩).1 (some [some (exRec '1' "AU"), some (exRec '2' "AU")]) (some [])
    let (_, res) ← getGatewaysNear m (exId 0x33) 2 none
    return (getAllGateways m, namesOf res)) : Except Fault (List Record × Ret (List Hex))) =
    .ok ([exRec '1' "AU", exRec '2' "AU"], .err) := by
  decide +kernel

/-- **C72 (partial).** If everything known before is reported again, table and ring agree after the restart. -/
theorem C72_restart_partial {m : Mgr} {l : List Hex} (hc : Consistent m l) (hs : m.started = true) (hg : m.gatewayDiscv = true)
    (hp : m.providerDiscv = true) (s : Service) (g p : Answer) (hng : NoNull g) (hnp : NoNull p) (hcan : ∀ r ∈ records g, Canonical r.nodeID)
    (hback : ∀ x ∈ l, ∃ r ∈ records g, r.nodeID = x) :
    ∃ m' l', start (shutdown m s).1 g p = .ok (m', true) ∧ Consistent m' l' ∧ ∀ x, x ∈ l' ↔ ∃ r ∈ records g, r.nodeID = x := by
  obtain ⟨m', h1, h2, h3, h4⟩ := restart_spec hc.ring hs hg hp s g p hng hnp
  have hcan' : ∀ x ∈ (records g).map (·.nodeID), Canonical x := by
    intro x hx
    obtain ⟨r, hr, rfl⟩ := List.mem_map.1 hx
    exact hcan r hr
  have hmem : ∀ x, x ∈ addAll ((records g).map (·.nodeID)) l ↔ ∃ r ∈ records g, r.nodeID = x := by
    intro x
    rw [mem_addAll hcan' hc.canonical]
    simp only [List.mem_map]
    constructor
    · rintro (h | h)
      · exact h
      · exact hback x h
    · exact Or.inl
  refine ⟨m', _, h1, ⟨h4, ?_, ?_, ?_, ?_⟩, hmem⟩
  · intro x
    rw [hmem, ← mget_isSome_iff, h3, mget_tableAll]
    simp only [mget, Option.or_none, List.find?_nil, Option.map_none]
    exact latest_isSome.symm
  · rw [h3]; exact tableAll_nodup _ (by simp [mkeys])
  · intro x r hx
    rw [h3, mget_tableAll] at hx
    simp only [mget, Option.or_none, List.find?_nil, Option.map_none] at hx
    exact (latest_some hx).2
  · intro x hx
    rw [hmem] at hx
    obtain ⟨r, hr, rfl⟩ := hx
    exact hcan r hr

/-- A manager that is not running hears nothing and answers nothing; one that is running cannot be started a second time. -/
theorem C72_stopped {m : Mgr} (s : Service) (hs : m.started = true) :
    (shutdown m s).1.started = false ∧ (∀ g p, refresh (shutdown m s).1 g p = .ok (shutdown m s).1) ∧
    (∀ e, hear (shutdown m s).1 e = .ok (shutdown m s).1) ∧ (∀ g p, start m g p = .ok (m, false)) ∧
    (∀ id g p, getGateway (shutdown m s).1 id g p = .ok ((shutdown m s).1, none)) ∧ (∀ id, getProvider (shutdown m s).1 id = none) ∧
    getAllGateways (shutdown m s).1 = [] ∧ getAllProviders (shutdown m s).1 = [] := by
  have h : (shutdown m s).1.started = false := by
    unfold shutdown
    simp only [hs, Bool.true_eq_false, if_false]
  have hear_ : ∀ e, hear (shutdown m s).1 e = .ok (shutdown m s).1 := by
    intro e
    cases e <;> simp [hear, roundGateways, roundProviders, pull, h, storeGateways, bind, Except.bind, pure, Except.pure]
  refine ⟨h, ?_, hear_, ?_, ?_, ?_, ?_, ?_⟩ <;> intros <;>
    simp [hs, start, refresh, getGateway, getProvider, getAllGateways, getAllProviders, h, pure, Except.pure]

/-! ## C91 -/

/-- **C91 (refuted).** Shutting down one node with gateway (provider) discovery empties the register's list of gateways (providers),
whoever registered them. -/
theorem C91_shutdown_clears_register {m : Mgr} (s : Service) (hs : m.started = true) :
    (m.gatewayDiscv = true → Register.list (shutdown m s).2 .gateway = Register.list ⟨[], []⟩ .gateway) ∧
    (m.providerDiscv = true → Register.list (shutdown m s).2 .provider = Register.list ⟨[], []⟩ .provider) := by
  cases hg : m.gatewayDiscv <;> cases hp : m.providerDiscv <;>
    simp [shutdown, hs, hg, hp, Register.list, Register.hash_deleteAll] <;> first | rfl | exact ⟨rfl, rfl⟩

/-- **C91 (refuted)**: a gateway registers; another node stops; the register no longer lists the gateway. -/
theorem C91_others_lost_refuted : ¬ ∀ (m : Mgr) (ops : List Register.Op) (r : Record), m.started = true →
    Register.latest .gateway r.nodeID ops = some r →
    ∃ l, Register.readListing .gateway (Register.list (shutdown m (Register.after ops)).2 .gateway) = some l ∧ some r ∈ l := by
  intro h
  obtain ⟨l, h1, h2⟩ := h (fresh true true) Register.exOps Register.exRecord rfl (by decide +kernel)
  rw [(C91_shutdown_clears_register _ rfl).1 rfl] at h1
  have : Register.readListing .gateway (Register.list ⟨[], []⟩ .gateway) = some [] := by decide +kernel
  rw [this] at h1
  cases h1
  simp at h2

/-- **C91 (partial)**: a kind the node does not discover is left alone, and so is everything when the node is not running. -/
theorem C91_not_discovered_partial (m : Mgr) (s : Service) (k : Kind)
    (h : m.started = false ∨ (k = .gateway ∧ m.gatewayDiscv = false) ∨ (k = .provider ∧ m.providerDiscv = false)) :
    Register.list (shutdown m s).2 k = Register.list s k := by
  rcases h with h | ⟨rfl, h⟩ | ⟨rfl, h⟩
  · simp [shutdown, h]
  · cases hs : m.started <;> cases hp : m.providerDiscv <;>
      simp [shutdown, h, hs, hp, Register.list, Register.hash_deleteAll]
  · cases hs : m.started <;> cases hp : m.gatewayDiscv <;>
      simp [shutdown, h, hs, hp, Register.list, Register.hash_deleteAll]

end FcRetrieval.RegMgr
