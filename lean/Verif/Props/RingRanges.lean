import Verif.Props.RingListed
/-!
# C177: offers published and ranges between any contents listed at the same time

`C177_ranges_partial`: as `C177_listed_partial`, but the ends of the ranges need not be on offer: a listing then puts them on the ring and takes them off again.
The first lemmas tell what that does to the ring, the next what the requests in progress keep true.
-/
set_option linter.unusedSimpArgs false
namespace FcRetrieval.RingShared
open FcRetrieval.Ids (Id Proper position)
open FcRetrieval.Merkle (Hash)
open FcRetrieval.Offer (CidOffer InRange)
open FcRetrieval.OfferMgr
open FcRetrieval.Ring (Ring Hex Fault IsRingAt validateInput keyOf allocNode get_eq find_node ensure dropTemp remove)

theorem spread_pos {calls : List Call} {offered : List Id} (hsp : Spread calls offered) {i j : Nat} {k k' : Call} (hi : calls[i]? = some k) (hj : calls[j]? = some k')
    (h : k.cid = k'.cid) : i = j := by
  refine Classical.byContradiction fun hij => ?_
  obtain ⟨d, _, hd⟩ := hsp.sep i j k k' hij hi hj
  rw [h] at hd
  omega

/-- A temporary end of a range is taken out. -/
theorem drop_ring {calls : List Call} {offered : List Id} (hsp : Spread calls offered) {w : World} {as : List Nat} {l : List Hex}
    (hr : RingOk calls offered w as l) {i : Nat} {k : Call} (hk : calls[i]? = some k) (hst : w.stage i = .linked) :
    ∃ r1 as1 l1, remove w.mgr.ring (Ids.toStr k.cid) = .ok r1 ∧
      RingOk calls offered ⟨{ w.mgr with ring := r1 }, fun j => if j = i then .begun else w.stage j⟩ as1 l1 ∧ (∀ a, (r1.heap a).val = (w.mgr.ring.heap a).val) ∧
      (∀ a ∈ as, (w.mgr.ring.heap a).val ≠ Ids.toStr k.cid → a ∈ as1) ∧ ∀ y ∈ l, y ≠ Ids.toStr k.cid → y ∈ l1 := by
  have hkm : k ∈ calls := List.mem_of_getElem? hk
  have hpk := hsp.proper k hkm
  have hkey : keyOf (Ids.toStr k.cid) = position k.cid := keyOf_toStr hpk
  have hxl : Ids.toStr k.cid ∈ l := (hr.vals _).2 (.inr ⟨i, k, hk, by rw [hst]; rfl, rfl⟩)
  have hxl0 := hxl
  rw [← hr.ring.vals] at hxl0
  obtain ⟨n, hn, hnv⟩ := List.mem_map.mp hxl0
  have hnk : (w.mgr.ring.heap n).key = position k.cid := by rw [hr.ring.keys n hn, hnv, hkey]
  obtain ⟨dl, hdl, hlow⟩ := hsp.low k hkm
  obtain ⟨dh, hdh, hhigh⟩ := hsp.high k hkm
  obtain ⟨nl, hnl, hkl⟩ := stored_node hr.ring (hsp.properO dl hdl) ((hr.vals _).2 (.inl (List.mem_map.mpr ⟨dl, hdl, rfl⟩)))
  obtain ⟨nh, hnh, hkh⟩ := stored_node hr.ring (hsp.properO dh hdh) ((hr.vals _).2 (.inl (List.mem_map.mpr ⟨dh, hdh, rfl⟩)))
  have hsn := hr.ring.sorted_nodes
  have hrr := hr.ring
  obtain ⟨lo, hi, rfl⟩ := List.append_of_mem hn
  have hlo : ∀ a ∈ lo, (w.mgr.ring.heap a).key < (w.mgr.ring.heap n).key := fun a ha => by
    have := (List.pairwise_append.mp hsn).2.2 a ha n (by simp)
    exact this
  have hhi : ∀ a ∈ hi, (w.mgr.ring.heap n).key < (w.mgr.ring.heap a).key := fun a ha => by
    have := (List.pairwise_cons.mp (List.pairwise_append.mp hsn).2.1).1 a ha
    exact this
  have hlo0 : nl ∈ lo := by
    rcases List.mem_append.mp hnl with h | h
    · exact h
    · rcases List.mem_cons.mp h with rfl | h
      · omega
      · have := hhi _ h
        omega
  have hhi0 : nh ∈ hi := by
    rcases List.mem_append.mp hnh with h | h
    · have := hlo _ h
      omega
    · rcases List.mem_cons.mp h with rfl | h
      · omega
      · exact h
  cases lo with
  | nil => cases hlo0
  | cons hd mid =>
    have hlen : 3 ≤ (hd :: mid ++ n :: hi).length := by
      cases hi with
      | nil => cases hhi0
      | cons => simp; omega
    obtain ⟨p, c, _, _, _, e1, e2⟩ := remove_at hrr (validate_toStr hpk) hlen hnv
    have hnd : l.Nodup := by
      refine hrr.sorted.imp ?_
      intro a b hab e
      rw [e] at hab
      omega
    have hmem : ∀ y, y ∈ l.erase (Ids.toStr k.cid) ↔ y ≠ Ids.toStr k.cid ∧ y ∈ l := fun y => hnd.mem_erase_iff
    have hnn : ∀ a, a ∈ hd :: mid ++ hi ↔ a ∈ hd :: mid ++ n :: hi ∧ a ≠ n := by
      intro a
      have hnd2 := hrr.nodup
      simp only [List.nodup_append, List.nodup_cons, List.mem_append, List.mem_cons] at hnd2 ⊢
      grind
    refine ⟨_, _, _, e1, ⟨e2, ?_, ?_, ?_⟩, fun a => rfl, ?_, fun y hy hne => (hmem y).2 ⟨hne, hy⟩⟩
    · intro y
      rw [hmem, hr.vals]
      constructor
      · rintro ⟨hne, h | ⟨j, k', hj, hin, hy⟩⟩
        · exact .inl h
        · refine .inr ⟨j, k', hj, ?_, hy⟩
          have hji : j ≠ i := by
            rintro rfl
            rw [hk] at hj
            cases hj
            exact hne hy
          simpa [hji] using hin
      · rintro (h | ⟨j, k', hj, hin, hy⟩)
        · refine ⟨?_, .inl h⟩
          obtain ⟨d, hd, rfl⟩ := List.mem_map.mp h
          intro e
          exact hsp.new k hkm ((toStr_inj (hsp.properO d hd) hpk).1 e ▸ hd)
        · by_cases hji : j = i
          · simp [hji, isIn] at hin
          · refine ⟨?_, .inr ⟨j, k', hj, by simpa [hji] using hin, hy⟩⟩
            rw [hy]
            intro e
            exact hji (spread_pos hsp hj hk ((toStr_inj (hsp.proper k' (List.mem_of_getElem? hj)) hpk).1 e))
    · intro j k' q hj hq
      by_cases hji : j = i
      · simp [hji] at hq
      · simp only [if_neg hji] at hq
        obtain ⟨p', rfl, hg⟩ := hr.gaps j k' q hj hq
        obtain ⟨d, hd', hbt⟩ := hsp.sep i j k k' (Ne.symm hji) hk hj
        obtain ⟨m, hm, hmk⟩ := stored_node hr.ring (hsp.properO d hd') ((hr.vals _).2 (.inl (List.mem_map.mpr ⟨d, hd', rfl⟩)))
        have hkk : keyOf (Ids.toStr k'.cid) = position k'.cid := keyOf_toStr (hsp.proper k' (List.mem_of_getElem? hj))
        have g1 := hg.none m hm
        have g2 := hg.lo
        have g3 := hg.hi
        rw [hmk] at g1
        rw [hkk] at g2 g3
        have hp1 : p'.prv ≠ n := by
          intro e
          rw [e, hnk] at g1 g2
          omega
        have hp2 : p'.current ≠ n := by
          intro e
          rw [e, hnk] at g1 g3
          omega
        exact ⟨p', rfl, ⟨hg.far, hg.front, fun h => hg.fresh ((hnn _).1 h).1, hg.alloc, hg.key, hg.val, (hnn _).2 ⟨hg.prv, hp1⟩, (hnn _).2 ⟨hg.cur, hp2⟩, hg.lo, hg.hi,
          fun a ha => hg.none a ((hnn a).1 ha).1⟩⟩
    · intro a b ka kb pa pb hab ha hb hqa hqb
      simp only at hqa hqb
      by_cases hai : a = i
      · rw [if_pos hai] at hqa
        cases hqa
      · by_cases hbi : b = i
        · rw [if_pos hbi] at hqb
          cases hqb
        · rw [if_neg hai] at hqa
          rw [if_neg hbi] at hqb
          exact hr.nodes a b ka kb pa pb hab ha hb hqa hqb
    · intro a ha hne
      refine (hnn a).2 ⟨ha, ?_⟩
      rintro rfl
      exact hne hnv

/-- A temporary end of a range is put in. -/
theorem ensure_new {calls : List Call} {offered : List Id} (hsp : Spread calls offered) {w : World} {as : List Nat} {l : List Hex}
    (hr : RingOk calls offered w as l) {i : Nat} {k : Call} (hk : calls[i]? = some k) (hst : w.stage i = .begun) :
    ∃ r1 as1 l1 n, ensure w.mgr.ring (Ids.toStr k.cid) = .ok (r1, false, some n) ∧
      RingOk calls offered ⟨{ w.mgr with ring := r1 }, fun j => if j = i then .linked else w.stage j⟩ as1 l1 ∧ n ∈ as1 ∧ (r1.heap n).val = Ids.toStr k.cid ∧
      ∀ a ∈ as, a ∈ as1 ∧ (r1.heap a).val = (w.mgr.ring.heap a).val := by
  have hkm : k ∈ calls := List.mem_of_getElem? hk
  have hpk := hsp.proper k hkm
  have hv := validate_toStr hpk
  obtain ⟨p, e1, _⟩ := begun_look hsp hr hk hst
  have t1 : tick (fun x => x) calls w i = .ok ⟨{ w.mgr with ring := allocNode w.mgr.ring (Ids.toStr k.cid) }, fun j => if j = i then .found (some p) else w.stage j⟩ := by
    simp only [tick, hk, hst, e1, bind, Except.bind, pure, Except.pure]
  obtain ⟨as0, l0, hr0, k0⟩ := tick_ring hsp hr t1
  have t2 : tick (fun x => x) calls ⟨{ w.mgr with ring := allocNode w.mgr.ring (Ids.toStr k.cid) }, fun j => if j = i then .found (some p) else w.stage j⟩ i =
      .ok ⟨{ w.mgr with ring := insertLink (allocNode w.mgr.ring (Ids.toStr k.cid)) (some p) }, fun j => if j = i then .linked else w.stage j⟩ := by
    simp only [tick, hk, if_true, Except.ok.injEq, World.mk.injEq, true_and]
    funext j
    by_cases hj : j = i <;> simp [hj]
  obtain ⟨as1, l1, hr1, k1⟩ := tick_ring hsp hr0 t2
  have hins : Ring.insert w.mgr.ring (Ids.toStr k.cid) = .ok (insertLink (allocNode w.mgr.ring (Ids.toStr k.cid)) (some p)) := by
    rw [← C177_insert_parts, e1]
    rfl
  have hno : as.find? (fun a => (w.mgr.ring.heap a).val = Ids.toStr k.cid) = none := by
    rw [List.find?_eq_none]
    intro a ha e
    simp only [decide_eq_true_eq] at e
    have hal : (w.mgr.ring.heap a).val ∈ l := by rw [← hr.ring.vals]; exact List.mem_map.mpr ⟨a, ha, rfl⟩
    rw [e] at hal
    rcases (hr.vals _).1 hal with h | ⟨j, k', hj, hin, hy⟩
    · obtain ⟨d, hd, hde⟩ := List.mem_map.mp h
      exact hsp.new k hkm ((toStr_inj (hsp.properO d hd) hpk).1 hde ▸ hd)
    · have := spread_pos hsp hk hj ((toStr_inj hpk (hsp.proper k' (List.mem_of_getElem? hj))).1 hy)
      subst this
      rw [hst] at hin
      cases hin
  obtain ⟨n, hn, hnv, hf⟩ := find_node hr1.ring (x := Ids.toStr k.cid) ((hr1.vals _).2 (.inr ⟨i, k, hk, by simp [isIn], rfl⟩))
  refine ⟨_, as1, l1, n, ?_, hr1, hn, hnv, fun a ha => ⟨(k1 a (k0 a ha).1).1, ?_⟩⟩
  · have g2 := get_eq hr1.ring hv
    rw [hf] at g2
    have g1 := get_eq hr.ring hv
    rw [hno] at g1
    simp only at g2
    simp only [ensure, g1, hins, g2, bind, Except.bind, pure, Except.pure]
  · rw [(k1 a (k0 a ha).1).2, (k0 a ha).2]

/-- An end of a range, on offer or not, is looked up or put in. -/
theorem ensure_any {calls : List Call} {offered : List Id} (hsp : Spread calls offered) {w : World} {as : List Nat} {l : List Hex} (hr : RingOk calls offered w as l)
    {c : Id} (hc : c ∈ offered ∨ c ∉ offered ∧ ∃ i k, calls[i]? = some k ∧ k.cid = c ∧ w.stage i = .begun) :
    ∃ r1 as1 l1 st1 n, ensure w.mgr.ring (Ids.toStr c) = .ok (r1, decide (c ∈ offered), some n) ∧ RingOk calls offered ⟨{ w.mgr with ring := r1 }, st1⟩ as1 l1 ∧
      n ∈ as1 ∧ (r1.heap n).val = Ids.toStr c ∧ (∀ a ∈ as, a ∈ as1 ∧ (r1.heap a).val = (w.mgr.ring.heap a).val) ∧
      ∀ (i : Nat) k, calls[i]? = some k → st1 i = if k.cid = c then .linked else w.stage i := by
  rcases hc with hc | ⟨hn, i, k, hk, rfl, hst⟩
  · obtain ⟨n, hn, hv, hf⟩ := find_node hr.ring ((hr.vals _).2 (.inl (List.mem_map.mpr ⟨c, hc, rfl⟩)))
    refine ⟨w.mgr.ring, as, l, w.stage, n, ?_, hr, hn, hv, fun a ha => ⟨ha, rfl⟩, fun i k hk => ?_⟩
    · rw [ensure_stored hr.ring (validate_toStr (hsp.properO c hc)) hn hv]
      simp [hc]
    · rw [if_neg]
      rintro rfl
      exact hsp.new k (List.mem_of_getElem? hk) hc
  · obtain ⟨r1, as1, l1, n, f1, f2, f3, f4, f5⟩ := ensure_new hsp hr hk hst
    refine ⟨r1, as1, l1, _, n, by simp [f1, hn], f2, f3, f4, f5, fun j k' hj => ?_⟩
    by_cases hji : j = i
    · subst hji
      rw [hk] at hj
      cases hj
      simp
    · rw [if_neg hji, if_neg]
      exact fun e => hji (spread_pos hsp hj hk e)

/-- An end of a range, on offer or not, is left. -/
theorem drop_any {calls : List Call} {offered : List Id} (hsp : Spread calls offered) {w : World} {as : List Nat} {l : List Hex} (hr : RingOk calls offered w as l)
    {c : Id} (hc : c ∈ offered ∨ c ∉ offered ∧ ∃ i k, calls[i]? = some k ∧ k.cid = c ∧ w.stage i = .linked) :
    ∃ r1 as1 l1 st1, dropTemp w.mgr.ring (Ids.toStr c) (decide (c ∈ offered)) = .ok r1 ∧ RingOk calls offered ⟨{ w.mgr with ring := r1 }, st1⟩ as1 l1 ∧
      (∀ a, (r1.heap a).val = (w.mgr.ring.heap a).val) ∧ (∀ a ∈ as, c ∈ offered ∨ (w.mgr.ring.heap a).val ≠ Ids.toStr c → a ∈ as1) ∧
      (∀ y ∈ l, c ∈ offered ∨ y ≠ Ids.toStr c → y ∈ l1) ∧
      ∀ (i : Nat) k, calls[i]? = some k → st1 i = if k.cid = c then .begun else w.stage i := by
  rcases hc with hc | ⟨hn, i, k, hk, rfl, hst⟩
  · refine ⟨w.mgr.ring, as, l, w.stage, by simp [dropTemp, hc], hr, fun _ => rfl, fun a ha _ => ha, fun y hy _ => hy, fun i k hk => ?_⟩
    rw [if_neg]
    rintro rfl
    exact hsp.new k (List.mem_of_getElem? hk) hc
  · obtain ⟨r1, as1, l1, f1, f2, f3, f4, f5⟩ := drop_ring hsp hr hk hst
    refine ⟨r1, as1, l1, _, by simp [dropTemp, hn, f1], f2, f3, fun a ha h => f4 a ha (h.resolve_left hn), fun y hy h => f5 y hy (h.resolve_left hn), fun j k' hj => ?_⟩
    by_cases hji : j = i
    · subst hji
      rw [hk] at hj
      cases hj
      simp
    · rw [if_neg hji, if_neg]
      exact fun e => hji (spread_pos hsp hj hk e)

/-- The walk from one end to the other, with each end or without it. -/
theorem walk_any {r : Ring} {as : List Nat} {l : List Hex} {all : List Id} {a b : Id} (hr : IsRingAt r as l) (hm : ∀ x, x ∈ l ↔ x ∈ all.map Ids.toStr)
    (hp : ∀ d ∈ all, Proper d) (ha : Proper a) (hb : Proper b) (hab : a ≠ b)
    {s t : Nat} (hs : s ∈ as) (hsv : (r.heap s).val = Ids.toStr a) (ht : t ∈ as) (htv : (r.heap t).val = Ids.toStr b) (fa fb : Bool) :
    ∃ es, listWalk r (Ids.toStr a) (Ids.toStr b) ⟨s, fa, t, fb⟩ (r.cap + 1) = .ok (es.map Ids.toStr) ∧
      IsArc (all.filter (fun c => (fa || decide (c ≠ a)) && (fb || decide (c ≠ b)))) a b es := by
  obtain ⟨es0, k1, k2⟩ := walk_stored hr hm hp ha hb hab hs hsv ht htv
  unfold listWalk at k1 ⊢
  simp only [bind, Except.bind, pure, Except.pure] at k1 ⊢
  cases hl : Ring.rangeLoop r.heap (r.heap t).val (r.cap + 1) (r.heap s).next with
  | error f => rw [hl] at k1; cases k1
  | ok mid =>
    rw [hl] at k1
    simp only [if_true, Except.ok.injEq] at k1
    have hpe : ∀ c ∈ es0, Proper c := fun c hc => hp c ((k2.1 c).1 hc).1
    -- the two ends are the first and the last
    obtain ⟨em, rfl, hmid⟩ : ∃ em, es0 = a :: em ++ [b] ∧ mid = em.map Ids.toStr := by
      simp only [List.cons_append, List.nil_append] at k1
      obtain ⟨c1, rest, rfl, h1, h2⟩ := List.map_eq_cons_iff.mp k1.symm
      obtain ⟨em, e2, rfl, h3, h4⟩ := List.map_eq_append_iff.mp h2
      obtain ⟨c2, e3, rfl, h5, h6⟩ := List.map_eq_cons_iff.mp h4
      have := List.map_eq_nil_iff.mp h6
      subst this
      refine ⟨em, ?_, h3.symm⟩
      rw [(toStr_inj (hpe c1 (by simp)) ha).1 h1, (toStr_inj (hpe c2 (by simp)) hb).1 h5]
      rfl
    refine ⟨(a :: em ++ [b]).filter (fun c => (fa || decide (c ≠ a)) && (fb || decide (c ≠ b))), ?_, fun c => ?_, k2.2.filter _⟩
    · have hnd : (a :: em ++ [b]).Nodup := k2.2.imp (fun h e => by rw [e] at h; omega)
      have hem : em.filter (fun c => (fa || decide (c ≠ a)) && (fb || decide (c ≠ b))) = em := by
        rw [List.filter_eq_self]
        intro c hc
        have h1 : c ≠ a := by rintro rfl; simp [hc] at hnd
        have h2 : c ≠ b := by
          rintro rfl
          rw [List.nodup_append] at hnd
          exact hnd.2.2 c (by simp [hc]) c (by simp) rfl
        simp [h1, h2]
      simp only [List.cons_append, List.filter_cons, List.filter_append, hem, List.filter_nil]
      rw [hmid]
      cases fa <;> cases fb <;> simp [hab, hab.symm]
    · rw [List.mem_filter, List.mem_filter, k2.1]
      exact and_right_comm

/-- The listing is between its first and its last part. -/
def inProg : LStage → Bool
  | .walking _ => true
  | .ending _ _ => true
  | _ => false

/-- An end of the range of a listing in progress. -/
def Hot (qs : List Query) (look : Nat → LStage) (c : Id) : Prop :=
  ∃ (j : Nat) (q : Query), qs[j]? = some q ∧ inProg (look j) = true ∧ (c = q.lo ∨ c = q.hi)

/-- Behind the publications, `ext` lists the ends of ranges that are not on offer. -/
structure Ext (calls : List Call) (qs : List Query) (offered : List Id) (ext : List Call) : Prop where
  left : ∀ i < calls.length, ext[i]? = calls[i]?
  right : ∀ (i : Nat) k, calls.length ≤ i → ext[i]? = some k → k.cid ∉ offered ∧ ∃ q ∈ qs, k.cid = q.lo ∨ k.cid = q.hi
  all : ∀ c, c ∉ offered → (∃ q ∈ qs, c = q.lo ∨ c = q.hi) → ∃ (i : Nat) (k : Call), calls.length ≤ i ∧ ext[i]? = some k ∧ k.cid = c
  apart : ∀ k ∈ calls, k.cid ∉ offered ∧ ∀ q ∈ qs, k.cid ≠ q.lo ∧ k.cid ≠ q.hi
  proper : ∀ q ∈ qs, Proper q.lo ∧ Proper q.hi ∧ q.lo ≠ q.hi
  own : ∀ (i j : Nat) q q', i ≠ j → qs[i]? = some q → qs[j]? = some q' → ∀ c, c = q.lo ∨ c = q.hi → c = q'.lo ∨ c = q'.hi → c ∈ offered

/-- The ring while publications and listings are in progress: the ends of ranges that are not on offer are on it as long as their listing is in progress. -/
structure BothOk (calls : List Call) (qs : List Query) (offered : List Id) (ext : List Call) (b : Both) (st : Nat → Stage) (as : List Nat) (l : List Hex) : Prop where
  ring : RingOk ext offered ⟨b.world.mgr, st⟩ as l
  old : ∀ i < calls.length, st i = b.world.stage i
  tmp : ∀ (i : Nat) k, calls.length ≤ i → ext[i]? = some k → (st i = .linked ∧ Hot qs b.look k.cid) ∨ (st i = .begun ∧ ¬ Hot qs b.look k.cid)

/-- What a listing may answer, when other listings are in progress. -/
def Fair (calls : List Call) (qs : List Query) (offered : List Id) (base : List Id) (q : Query) (res : List Hex) : Prop :=
  ∃ off es, res = es.map Ids.toStr ∧ IsArc off q.lo q.hi es ∧ (∀ d ∈ base, d ∈ off) ∧
    ∀ d ∈ off, d ∈ offered ∨ (∃ k ∈ calls, d = k.cid) ∨ (d ≠ q.lo ∧ d ≠ q.hi ∧ ∃ q' ∈ qs, d = q'.lo ∨ d = q'.hi)

/-- What is known of a listing in progress. -/
def ViewOk (calls : List Call) (qs : List Query) (offered : List Id) (r : Ring) (as : List Nat) (l : List Hex) (base : List Id) (q : Query) : LStage → Prop
  | .begun => ∀ d ∈ base, Ids.toStr d ∈ l
  | .walking L => (∃ s t, L = ⟨s, decide (q.lo ∈ offered), t, decide (q.hi ∈ offered)⟩ ∧ s ∈ as ∧ (r.heap s).val = Ids.toStr q.lo ∧ t ∈ as ∧ (r.heap t).val = Ids.toStr q.hi) ∧
      ∀ d ∈ base, Ids.toStr d ∈ l
  | .ending L res => (∃ s t, L = ⟨s, decide (q.lo ∈ offered), t, decide (q.hi ∈ offered)⟩) ∧ Fair calls qs offered base q res
  | .answered res => Fair calls qs offered base q res
  | .refused => False

theorem view_keeps {calls : List Call} {qs : List Query} {offered : List Id} {r r' : Ring} {as as' : List Nat} {l l' : List Hex} {base : List Id} {q : Query} {st : LStage}
    (hv : ∀ a ∈ as, (r'.heap a).val = (r.heap a).val)
    (hk : inProg st = true → ∀ a ∈ as, (r.heap a).val = Ids.toStr q.lo ∨ (r.heap a).val = Ids.toStr q.hi → a ∈ as')
    (hl : ∀ d ∈ base, Ids.toStr d ∈ l → Ids.toStr d ∈ l') (h : ViewOk calls qs offered r as l base q st) : ViewOk calls qs offered r' as' l' base q st := by
  cases st with
  | begun => exact fun d hd => hl d hd (h d hd)
  | walking L =>
    obtain ⟨⟨s, t, h1, h2, h3, h4, h5⟩, h6⟩ := h
    exact ⟨⟨s, t, h1, hk rfl s h2 (.inl h3), by rw [hv s h2]; exact h3, hk rfl t h4 (.inr h5), by rw [hv t h4]; exact h5⟩, fun d hd => hl d hd (h6 d hd)⟩
  | ending L res => exact h
  | answered res => exact h
  | refused => exact h

theorem hot_other {qs : List Query} {look : Nat → LStage} {j : Nat} {q : Query} (hj : qs[j]? = some q) (st : LStage) {c : Id} (h1 : c ≠ q.lo) (h2 : c ≠ q.hi) :
    Hot qs (fun i => if i = j then st else look i) c ↔ Hot qs look c := by
  constructor
  · rintro ⟨i, q', hi, hp, hc⟩
    have hij : i ≠ j := by
      rintro rfl
      rw [hj] at hi
      cases hi
      exact hc.elim h1 h2
    exact ⟨i, q', hi, by simpa [hij] using hp, hc⟩
  · rintro ⟨i, q', hi, hp, hc⟩
    have hij : i ≠ j := by
      rintro rfl
      rw [hj] at hi
      cases hi
      exact hc.elim h1 h2
    exact ⟨i, q', hi, by simpa [hij] using hp, hc⟩

theorem hot_same {qs : List Query} {look : Nat → LStage} {j : Nat} {st : LStage} (h : inProg st = inProg (look j)) {c : Id} :
    Hot qs (fun i => if i = j then st else look i) c ↔ Hot qs look c := by
  have : ∀ i, inProg (if i = j then st else look i) = inProg (look i) := by
    intro i
    by_cases hij : i = j
    · rw [if_pos hij, h, hij]
    · rw [if_neg hij]
  simp only [Hot, this]

/-- A part of a listing. -/
theorem lookTick_both {calls ext : List Call} {qs : List Query} {offered : List Id} (hsp : Spread ext offered) (he : Ext calls qs offered ext)
    {b : Both} {st : Nat → Stage} {as : List Nat} {l : List Hex} (hr : BothOk calls qs offered ext b st as l)
    {base : Nat → List Id} (hbp : ∀ j, ∀ d ∈ base j, Proper d ∧ (d ∈ offered ∨ ∃ k ∈ calls, d = k.cid))
    (hl : ∀ (j : Nat) (q : Query), qs[j]? = some q → ViewOk calls qs offered b.world.mgr.ring as l (base j) q (b.look j)) (j : Nat) :
    ∃ r' look' st' as' l', lookTick qs b j = .ok ⟨⟨{ b.world.mgr with ring := r' }, b.world.stage⟩, look'⟩ ∧
      BothOk calls qs offered ext ⟨⟨{ b.world.mgr with ring := r' }, b.world.stage⟩, look'⟩ st' as' l' ∧
      ∀ (i : Nat) (q : Query), qs[i]? = some q → ViewOk calls qs offered r' as' l' (base i) q (look' i) := by
  unfold lookTick
  cases hqj : qs[j]? with
  | none => exact ⟨b.world.mgr.ring, b.look, st, as, l, rfl, hr, hl⟩
  | some q =>
    have hqm : q ∈ qs := List.mem_of_getElem? hqj
    obtain ⟨hplo, hphi, hne⟩ := he.proper q hqm
    have hj := hl j q hqj
    have outside : ∀ {i : Nat} {k : Call}, i < calls.length → ext[i]? = some k → k.cid ≠ q.lo ∧ k.cid ≠ q.hi := by
      intro i k hi hk
      rw [he.left i hi] at hk
      exact (he.apart k (List.mem_of_getElem? hk)).2 q hqm
    -- an end that is not on offer belongs to no other listing
    have mine : ∀ c, c = q.lo ∨ c = q.hi → c ∉ offered → ∀ (i : Nat) (q' : Query), qs[i]? = some q' → c = q'.lo ∨ c = q'.hi → i = j := by
      intro c hc hn i q' hi hc'
      exact Classical.byContradiction fun hij => hn (he.own i j q' q hij hi hqj c hc' hc)
    have basis : ∀ i, ∀ d ∈ base i, ∀ c, c = q.lo ∨ c = q.hi → c ∉ offered → Ids.toStr d ≠ Ids.toStr c := by
      intro i d hd c hc hn e
      have hpc : Proper c := by rcases hc with rfl | rfl <;> assumption
      have hdc := (toStr_inj (hbp i d hd).1 hpc).1 e
      rcases (hbp i d hd).2 with h | ⟨k, hk, h⟩
      · exact hn (hdc ▸ h)
      · rcases hc with hc | hc
        · exact ((he.apart k hk).2 q hqm).1 (by rw [← h, hdc, hc])
        · exact ((he.apart k hk).2 q hqm).2 (by rw [← h, hdc, hc])
    dsimp only
    cases hst : b.look j with
    | begun =>
      rw [hst] at hj
      have idle : ∀ c, c = q.lo ∨ c = q.hi → c ∈ offered ∨ c ∉ offered ∧ ∃ (i : Nat) (k : Call), ext[i]? = some k ∧ k.cid = c ∧ st i = .begun := by
        intro c hc
        by_cases hn : c ∈ offered
        · exact .inl hn
        · obtain ⟨i, k, hi, hk, rfl⟩ := he.all c hn ⟨q, hqm, hc⟩
          refine .inr ⟨hn, i, k, hk, rfl, ?_⟩
          rcases hr.tmp i k hi hk with ⟨_, j', q', hj', hp, hc'⟩ | h
          · have := mine _ hc hn j' q' hj' hc'
            subst this
            rw [hst] at hp
            cases hp
          · exact h.1
      obtain ⟨r1, as1, l1, st1, s, f1, f2, f3, f4, f5, f6⟩ := ensure_any hsp hr.ring (idle q.lo (.inl rfl))
      have idle2 : q.hi ∈ offered ∨ q.hi ∉ offered ∧ ∃ (i : Nat) (k : Call), ext[i]? = some k ∧ k.cid = q.hi ∧ st1 i = .begun := by
        rcases idle q.hi (.inr rfl) with h | ⟨h, i, k, hk, hc, hs⟩
        · exact .inl h
        · refine .inr ⟨h, i, k, hk, hc, ?_⟩
          rw [f6 i k hk, if_neg (by rw [hc]; exact hne.symm)]
          exact hs
      obtain ⟨r2, as2, l2, st2, t, g1, g2, g3, g4, g5, g6⟩ := ensure_any hsp f2 idle2
      dsimp only at f1 f4 f5 f6 g1 g4 g5 g6
      have hb : listBegin b.world.mgr.ring (Ids.toStr q.lo) (Ids.toStr q.hi) = .ok (r2, some ⟨s, decide (q.lo ∈ offered), t, decide (q.hi ∈ offered)⟩) := by
        unfold listBegin
        rw [if_neg (by simp [validate_toStr hplo, validate_toStr hphi])]
        simp only [f1, g1, bind, Except.bind, pure, Except.pure]
      have hstage : ∀ (i : Nat) k, ext[i]? = some k → st2 i = if k.cid = q.hi then .linked else if k.cid = q.lo then .linked else st i := by
        intro i k hk
        rw [g6 i k hk, f6 i k hk]
      have hval : ∀ a ∈ as, (r2.heap a).val = (b.world.mgr.ring.heap a).val := fun a ha => by rw [(g5 a (f5 a ha).1).2, (f5 a ha).2]
      have hin : ∀ a ∈ as, a ∈ as2 := fun a ha => (g5 a (f5 a ha).1).1
      have hll : ∀ x ∈ l, x ∈ l2 := by
        intro x hx
        have hx0 := hx
        rw [← hr.ring.ring.vals] at hx
        obtain ⟨a, ha, rfl⟩ := List.mem_map.mp hx
        rw [← g2.ring.vals]
        exact List.mem_map.mpr ⟨a, hin a ha, hval a ha⟩
      simp only [hb, bind, Except.bind, pure, Except.pure]
      refine ⟨r2, _, st2, as2, l2, rfl, ⟨g2, ?_, ?_⟩, ?_⟩
      · intro i hi
        have hlt : i < ext.length := by
          have h1 := he.left i hi
          rw [List.getElem?_eq_getElem hi] at h1
          exact (List.getElem?_eq_some_iff.mp h1).1
        have hk := List.getElem?_eq_getElem hlt
        obtain ⟨o1, o2⟩ := outside hi hk
        rw [hstage i _ hk, if_neg o2, if_neg o1]
        exact hr.old i hi
      · intro i k hi hk
        rw [hstage i k hk]
        by_cases h2 : k.cid = q.hi
        · rw [if_pos h2]
          exact .inl ⟨rfl, j, q, hqj, by simp [inProg], .inr h2⟩
        · rw [if_neg h2]
          by_cases h1 : k.cid = q.lo
          · rw [if_pos h1]
            exact .inl ⟨rfl, j, q, hqj, by simp [inProg], .inl h1⟩
          · rw [if_neg h1]
            simp only [hot_other hqj _ h1 h2]
            exact hr.tmp i k hi hk
      · intro i q' hi
        by_cases hij : i = j
        · subst hij
          rw [hqj] at hi
          cases hi
          rw [if_pos rfl]
          exact ⟨⟨s, t, rfl, (g5 s f3).1, by rw [(g5 s f3).2]; exact f4, g3, g4⟩, fun d hd => hll _ (hj d hd)⟩
        · rw [if_neg hij]
          exact view_keeps hval (fun _ a ha _ => hin a ha) (fun d _ h => hll _ h) (hl i q' hi)
    | walking L =>
      rw [hst] at hj
      obtain ⟨⟨s, t, rfl, hs, hsv, ht, htv⟩, hb⟩ := hj
      obtain ⟨es, k1, k2⟩ := walk_any hr.ring.ring (vals_onRing hr.ring) (proper_onRing hsp) hplo hphi hne hs hsv ht htv (decide (q.lo ∈ offered)) (decide (q.hi ∈ offered))
      simp only [k1, bind, Except.bind, pure, Except.pure]
      refine ⟨b.world.mgr.ring, _, st, as, l, rfl, ⟨hr.ring, hr.old, ?_⟩, ?_⟩
      · intro i k hi hk
        simp only [hot_same (qs := qs) (look := b.look) (j := j) (st := .ending ⟨s, decide (q.lo ∈ offered), t, decide (q.hi ∈ offered)⟩ (es.map Ids.toStr)) (by rw [hst]; rfl)]
        exact hr.tmp i k hi hk
      · intro i q' hi
        by_cases hij : i = j
        · subst hij
          rw [hqj] at hi
          cases hi
          rw [if_pos rfl]
          refine ⟨⟨s, t, rfl⟩, _, es, rfl, k2, ?_, ?_⟩
          · intro d hd
            obtain ⟨d', hd', hde⟩ := List.mem_map.mp ((vals_onRing hr.ring _).1 (hb d hd))
            have hdd := (toStr_inj (proper_onRing hsp d' hd') (hbp i d hd).1).1 hde
            subst hdd
            rw [List.mem_filter]
            refine ⟨hd', ?_⟩
            have b1 : q.lo ∉ offered → d' ≠ q.lo := fun hn e => basis i d' hd q.lo (.inl rfl) hn (by rw [e])
            have b2 : q.hi ∉ offered → d' ≠ q.hi := fun hn e => basis i d' hd q.hi (.inr rfl) hn (by rw [e])
            by_cases c1 : q.lo ∈ offered <;> by_cases c2 : q.hi ∈ offered <;> simp [c1, c2, b1, b2]
          · intro d hd
            rw [List.mem_filter] at hd
            obtain ⟨hd, hnot⟩ := hd
            rcases mem_onRing.1 hd with h | ⟨i', k, hk, _, h⟩
            · exact .inl h
            · by_cases hlt : i' < calls.length
              · rw [he.left i' hlt] at hk
                exact .inr (.inl ⟨k, List.mem_of_getElem? hk, h⟩)
              · obtain ⟨o1, q', o2, o3⟩ := he.right i' k (Nat.le_of_not_lt hlt) hk
                rw [← h] at o1 o3
                simp only [Bool.and_eq_true, Bool.or_eq_true, decide_eq_true_eq] at hnot
                refine .inr (.inr ⟨?_, ?_, q', o2, o3⟩)
                · rintro rfl
                  exact hnot.1.elim o1 (fun e => e rfl)
                · rintro rfl
                  exact hnot.2.elim o1 (fun e => e rfl)
        · rw [if_neg hij]
          exact hl i q' hi
    | ending L res =>
      rw [hst] at hj
      obtain ⟨⟨s, t, rfl⟩, hfair⟩ := hj
      have busy : ∀ c, c = q.lo ∨ c = q.hi → c ∈ offered ∨ c ∉ offered ∧ ∃ (i : Nat) (k : Call), ext[i]? = some k ∧ k.cid = c ∧ st i = .linked := by
        intro c hc
        by_cases hn : c ∈ offered
        · exact .inl hn
        · obtain ⟨i, k, hi, hk, rfl⟩ := he.all c hn ⟨q, hqm, hc⟩
          refine .inr ⟨hn, i, k, hk, rfl, ?_⟩
          rcases hr.tmp i k hi hk with h | ⟨_, h⟩
          · exact h.1
          · exact absurd ⟨j, q, hqj, by rw [hst]; rfl, hc⟩ h
      obtain ⟨r1, as1, l1, st1, f1, f2, f3, f4, f5, f6⟩ := drop_any hsp hr.ring (busy q.hi (.inr rfl))
      have busy2 : q.lo ∈ offered ∨ q.lo ∉ offered ∧ ∃ (i : Nat) (k : Call), ext[i]? = some k ∧ k.cid = q.lo ∧ st1 i = .linked := by
        rcases busy q.lo (.inl rfl) with h | ⟨h, i, k, hk, hc, hs⟩
        · exact .inl h
        · refine .inr ⟨h, i, k, hk, hc, ?_⟩
          rw [f6 i k hk, if_neg (by rw [hc]; exact hne)]
          exact hs
      obtain ⟨r2, as2, l2, st2, g1, g2, g3, g4, g5, g6⟩ := drop_any hsp f2 busy2
      dsimp only at f1 f3 f4 f5 f6 g1 g3 g4 g5 g6
      have hstage : ∀ (i : Nat) k, ext[i]? = some k → st2 i = if k.cid = q.lo then .begun else if k.cid = q.hi then .begun else st i := by
        intro i k hk
        rw [g6 i k hk, f6 i k hk]
      simp only [listEnd, f1, g1, bind, Except.bind, pure, Except.pure]
      refine ⟨r2, _, st2, as2, l2, rfl, ⟨g2, ?_, ?_⟩, ?_⟩
      · intro i hi
        have hlt : i < ext.length := by
          have h1 := he.left i hi
          rw [List.getElem?_eq_getElem hi] at h1
          exact (List.getElem?_eq_some_iff.mp h1).1
        have hk := List.getElem?_eq_getElem hlt
        obtain ⟨o1, o2⟩ := outside hi hk
        rw [hstage i _ hk, if_neg o1, if_neg o2]
        exact hr.old i hi
      · intro i k hi hk
        rw [hstage i k hk]
        have hn := (he.right i k hi hk).1
        have cold : k.cid = q.lo ∨ k.cid = q.hi → ¬ Hot qs (fun i => if i = j then LStage.answered res else b.look i) k.cid := by
          rintro hc ⟨j', q', hj', hp, hc'⟩
          have := mine _ hc hn j' q' hj' hc'
          simp [this, inProg] at hp
        by_cases h1 : k.cid = q.lo
        · rw [if_pos h1]
          exact .inr ⟨rfl, cold (.inl h1)⟩
        · rw [if_neg h1]
          by_cases h2 : k.cid = q.hi
          · rw [if_pos h2]
            exact .inr ⟨rfl, cold (.inr h2)⟩
          · rw [if_neg h2]
            simp only [hot_other hqj _ h1 h2]
            exact hr.tmp i k hi hk
      · intro i q' hi
        by_cases hij : i = j
        · subst hij
          rw [hqj] at hi
          cases hi
          rw [if_pos rfl]
          exact hfair
        · rw [if_neg hij]
          have hpq := he.proper q' (List.mem_of_getElem? hi)
          -- the nodes of other listings stay
          have stays : ∀ c, c = q.lo ∨ c = q.hi → ∀ v, v = Ids.toStr q'.lo ∨ v = Ids.toStr q'.hi → c ∈ offered ∨ v ≠ Ids.toStr c := by
            intro c hc v hv
            by_cases hn : c ∈ offered
            · exact .inl hn
            · refine .inr fun e => hij (mine c hc hn i q' hi ?_)
              have hpc : Proper c := by rcases hc with rfl | rfl <;> assumption
              rw [e] at hv
              rcases hv with hv | hv
              · exact .inl ((toStr_inj hpc hpq.1).1 hv)
              · exact .inr ((toStr_inj hpc hpq.2.1).1 hv)
          have keeps : ∀ c, c = q.lo ∨ c = q.hi → ∀ d ∈ base i, c ∈ offered ∨ Ids.toStr d ≠ Ids.toStr c := by
            intro c hc d hd
            by_cases hn : c ∈ offered
            · exact .inl hn
            · exact .inr (basis i d hd c hc hn)
          refine view_keeps (fun a _ => by rw [g3, f3]) (fun _ a ha hv => g4 a (f4 a ha (stays q.hi (.inr rfl) _ hv)) ?_)
            (fun d hd h => g5 _ (f5 _ h (keeps q.hi (.inr rfl) d hd)) (keeps q.lo (.inl rfl) d hd)) (hl i q' hi)
          rw [f3]
          exact stays q.lo (.inl rfl) _ hv
    | answered res => exact ⟨b.world.mgr.ring, b.look, st, as, l, rfl, hr, hl⟩
    | refused => exact ⟨b.world.mgr.ring, b.look, st, as, l, rfl, hr, hl⟩

/-- A part of a publication, with the ends of ranges behind the publications. -/
theorem tick_ext {H512 : Hash} {calls ext : List Call} {w w1 : World} {st : Nat → Stage} {i : Nat} (hi : ext[i]? = calls[i]?) (hst : st i = w.stage i)
    (h : tick H512 calls w i = .ok w1) : tick H512 ext ⟨w.mgr, st⟩ i = .ok ⟨w1.mgr, fun j => if j = i then w1.stage i else st j⟩ ∧ ∀ j, j ≠ i → w1.stage j = w.stage j := by
  have hsame : (fun j => if j = i then w.stage i else st j) = st := by
    funext j
    by_cases hj : j = i
    · rw [if_pos hj, hj, hst]
    · rw [if_neg hj]
  unfold tick at h ⊢
  rw [hi]
  cases hk : calls[i]? with
  | none =>
    simp only [hk, Except.ok.injEq] at h
    subst h
    exact ⟨by simp only [hsame], fun _ _ => rfl⟩
  | some k =>
    simp only [hk] at h
    dsimp only
    rw [hst]
    cases hs : w.stage i with
    | begun =>
      simp only [hs, bind, Except.bind, pure, Except.pure] at h ⊢
      cases hl : insertLook w.mgr.ring (Ids.toStr k.cid) with
      | error f => rw [hl] at h; cases h
      | ok e =>
        rw [hl] at h
        simp only [Except.ok.injEq] at h ⊢
        subst h
        exact ⟨by simp, fun j hj => by simp [hj]⟩
    | found q =>
      simp only [hs, Except.ok.injEq] at h ⊢
      subst h
      exact ⟨by simp, fun j hj => by simp [hj]⟩
    | linked =>
      simp only [hs, bind, Except.bind, pure, Except.pure] at h ⊢
      cases hl : OfferMgr.add H512 id k.time w.mgr.dht k.offer with
      | error f => rw [hl] at h; cases h
      | ok e =>
        rw [hl] at h
        simp only [Except.ok.injEq] at h ⊢
        subst h
        exact ⟨by simp, fun j hj => by simp [hj]⟩
    | done ok =>
      simp only [hs, Except.ok.injEq] at h
      subst h
      refine ⟨?_, fun _ _ => rfl⟩
      rw [hsame]

theorem playBoth_both {H512 : Hash} {A : List CidOffer} {calls ext : List Call} {offered : List Id} {qs : List Query} (hA : NoCollision H512 A) (hf : Fresh A calls)
    (hsp : Spread ext offered) (he : Ext calls qs offered ext) {base : Nat → List Id} (hbp : ∀ j, ∀ d ∈ base j, Proper d ∧ (d ∈ offered ∨ ∃ k ∈ calls, d = k.cid)) {s : Shelf} :
    ∀ (sch : List (Nat ⊕ Nat)) {b : Both} {st : Nat → Stage} {as : List Nat} {l : List Hex}, BothOk calls qs offered ext b st as l →
      ∀ {ord : List Nat} {s' : Shelf}, StoreOk H512 A calls s b.world ord s' →
      (∀ (j : Nat) (q : Query), qs[j]? = some q → ViewOk calls qs offered b.world.mgr.ring as l (base j) q (b.look j)) →
      ∃ b' st' as' l' ord' s'', playBoth H512 calls qs b sch = .ok b' ∧ BothOk calls qs offered ext b' st' as' l' ∧
        StoreOk H512 A calls s b'.world ord' s'' ∧ ∀ (j : Nat) (q : Query), qs[j]? = some q → ViewOk calls qs offered b'.world.mgr.ring as' l' (base j) q (b'.look j)
  | [], b, st, as, l, hr, ord, s', hs, hl => ⟨b, st, as, l, ord, s', rfl, hr, hs, hl⟩
  | .inl i :: sch, b, st, as, l, hr, ord, s', hs, hl => by
    have hlook : ∀ (i : Nat) k, calls[i]? = some k → b.world.stage i = .begun → ∃ e, insertLook b.world.mgr.ring (Ids.toStr k.cid) = .ok e := by
      intro i k hk hst
      have hi : i < calls.length := (List.getElem?_eq_some_iff.mp hk).1
      exact looks hsp hr.ring i k (by rw [he.left i hi]; exact hk) (by rw [← hst]; exact hr.old i hi)
    obtain ⟨w1, ord1, s1, e1, e2⟩ := tick_store hA hf hlook hs i
    have key : ∃ st1 as1 l1, BothOk calls qs offered ext ⟨w1, b.look⟩ st1 as1 l1 ∧ ∀ a ∈ as, a ∈ as1 ∧ (w1.mgr.ring.heap a).val = (b.world.mgr.ring.heap a).val := by
      by_cases hi : i < calls.length
      · obtain ⟨t1, t2⟩ := tick_ext (he.left i hi) (hr.old i hi) e1
        obtain ⟨as1, l1, e3, e4⟩ := tick_ring hsp hr.ring t1
        refine ⟨_, as1, l1, ⟨e3, ?_, ?_⟩, e4⟩
        · intro j hj
          by_cases hji : j = i
          · rw [if_pos hji, hji]
          · rw [if_neg hji, t2 j hji]
            exact hr.old j hj
        · intro j k hj hk
          rw [if_neg (by omega)]
          exact hr.tmp j k hj hk
      · have : calls[i]? = none := List.getElem?_eq_none (Nat.le_of_not_lt hi)
        simp only [tick, this, Except.ok.injEq] at e1
        subst e1
        exact ⟨st, as, l, hr, fun a ha => ⟨ha, rfl⟩⟩
    obtain ⟨st1, as1, l1, e3, e4⟩ := key
    obtain ⟨b2, st2, as2, l2, ord2, s2, f1, f2⟩ := playBoth_both hA hf hsp he hbp sch (b := ⟨w1, b.look⟩) e3 e2
      (fun j q hj => view_keeps (fun a ha => (e4 a ha).2) (fun _ a ha _ => (e4 a ha).1) (fun d _ hd => by
        rw [← hr.ring.ring.vals] at hd
        obtain ⟨a, ha, hae⟩ := List.mem_map.mp hd
        rw [← e3.ring.ring.vals]
        exact List.mem_map.mpr ⟨a, (e4 a ha).1, by rw [← hae]; exact (e4 a ha).2⟩) (hl j q hj))
    exact ⟨b2, st2, as2, l2, ord2, s2, by simp only [playBoth, e1, bind, Except.bind, f1], f2⟩
  | .inr j :: sch, b, st, as, l, hr, ord, s', hs, hl => by
    obtain ⟨r1, look1, st1, as1, l1, e1, e2, e3⟩ := lookTick_both hsp he hr hbp hl j
    obtain ⟨b2, st2, as2, l2, ord2, s2, f1, f2⟩ := playBoth_both hA hf hsp he hbp sch e2 (ord := ord) (s' := s')
      ⟨hs.nodup, hs.mem, hs.ok, hs.steps, ⟨hs.inv.dht, hs.inv.group, hs.inv.subD, hs.inv.subG⟩⟩ e3
    exact ⟨b2, st2, as2, l2, ord2, s2, by simp only [playBoth, e1, bind, Except.bind, f1], f2⟩

theorem once (L : List Id) : ∃ T : List Id, T.Nodup ∧ ∀ c, c ∈ T ↔ c ∈ L := by
  induction L with
  | nil => exact ⟨[], List.nodup_nil, fun _ => Iff.rfl⟩
  | cons a L ih =>
    obtain ⟨T, h1, h2⟩ := ih
    by_cases h : a ∈ T
    · exact ⟨T, h1, fun c => by rw [h2, List.mem_cons]; exact ⟨.inr, fun e => e.elim (fun e => (h2 c).1 (e ▸ h)) id⟩⟩
    · exact ⟨a :: T, List.nodup_cons.mpr ⟨h, h1⟩, fun c => by rw [List.mem_cons, List.mem_cons, h2]⟩

theorem nodup_at {T : List Id} (h : T.Nodup) {i j : Nat} {c : Id} (hi : T[i]? = some c) (hj : T[j]? = some c) : i = j := by
  obtain ⟨hi1, hi2⟩ := List.getElem?_eq_some_iff.mp hi
  obtain ⟨hj1, hj2⟩ := List.getElem?_eq_some_iff.mp hj
  exact (List.getElem_inj h).1 (hi2.trans hj2.symm)

/-- **C177 (partial).** Any number of requests publish a content not on offer, and any number of requests list, from any content to another, all at the same time: their
parts (of a publication: search the ring, write to it, store; of a listing: put the ends that are not on offer on the ring, walk, take them off) come in any order.
Call newcomers the contents published and the ends of ranges, as far as they are not on offer.  If no two requests share a newcomer, and some content on offer lies
between any two newcomers, and below and above each, no request crashes, is refused or goes on for ever.  Every listing that has ended has answered the contents of
its range in clockwise order, each once, among contents that hold all that were on offer at first and all whose publication was answered before the listing began,
and none but those, the ones being published and the ends of other ranges.  When all requests have come to their end, all publications have been answered with
success and every later listing answers as if they had been served one after the other.  What is missing: newcomers with none on offer between them
(`C177_lost_refuted`, `C177_endless_refuted`, `C177_bound_refuted`). -/
theorem C177_ranges_partial {H512 : Hash} {order : DigestMap CidOffer → DigestMap CidOffer} {orderE : Storage CidOffer → Storage CidOffer}
    (hord : ∀ dm, (order dm).Perm dm) (hordE : ∀ st, (orderE st).Perm st) (h : List (Clock × Op)) (calls : List Call) (qs : List Query)
    (hcid : ∀ k ∈ calls, k.offer.cids = [k.cid] ∧ expired k.offer k.time = false ∧ k.cid ∉ dhtCids h ∧ ∀ q ∈ qs, k.cid ≠ q.lo ∧ k.cid ≠ q.hi)
    (hone : (calls.map (·.cid)).Nodup) (hq : ∀ q ∈ qs, Proper q.lo ∧ Proper q.hi ∧ q.lo ≠ q.hi)
    (hown : qs.Pairwise (fun q q' => ∀ c, c = q.lo ∨ c = q.hi → c = q'.lo ∨ c = q'.hi → c ∈ dhtCids h))
    (hends : ∀ c, Newcomer (dhtCids h) calls qs c → (∃ d ∈ dhtCids h, position d < position c) ∧ ∃ d ∈ dhtCids h, position c < position d)
    (hsep : ∀ c c', Newcomer (dhtCids h) calls qs c → Newcomer (dhtCids h) calls qs c' → c ≠ c' →
      ∃ d ∈ dhtCids h, (position c < position d ∧ position d < position c') ∨ (position c' < position d ∧ position d < position c))
    (hh : SaneHistory H512 (h ++ calls.map (fun k => (k.time, .addDht k.offer)))) (hs : AllSafe [] h) (sch1 sch2 : List (Nat ⊕ Nat)) :
    ∃ m outs b1 b2, execAll H512 order orderE newMgr h = .ok (m, outs) ∧
      playBoth H512 calls qs ⟨⟨m, fun _ => .begun⟩, fun _ => .begun⟩ sch1 = .ok b1 ∧ playBoth H512 calls qs b1 sch2 = .ok b2 ∧
      (∀ (j : Nat) (q : Query), qs[j]? = some q → b2.look j ≠ .refused ∧ ∀ res, b2.look j = .answered res →
        ∃ off es, res = es.map Ids.toStr ∧ IsArc off q.lo q.hi es ∧ (∀ d ∈ dhtCids h, d ∈ off) ∧
          (b1.look j = .begun → ∀ (i : Nat) (k : Call) (ok : Bool), calls[i]? = some k → b1.world.stage i = .done ok → k.cid ∈ off) ∧
          ∀ d ∈ off, d ∈ dhtCids h ∨ (∃ k ∈ calls, d = k.cid) ∨ (d ≠ q.lo ∧ d ≠ q.hi ∧ ∃ q' ∈ qs, d = q'.lo ∨ d = q'.hi)) ∧
      ((∀ i < calls.length, ∃ ok, b2.world.stage i = .done ok) → (∀ j < qs.length, ∃ res, b2.look j = .answered res) →
        (∀ i < calls.length, b2.world.stage i = .done true) ∧
        ∃ (dn : List Call) (s1 : Shelf), dn.Perm calls ∧
          Steps H512 true noOffers (h ++ dn.map (fun k => (k.time, .addDht k.offer))) (outs ++ dn.map (fun _ => .done true)) s1 ∧
          ∀ x y max t', Proper x → Proper y → x ≠ y →
            ∃ m2 out s2, exec H512 order orderE t' b2.world.mgr (.range x y max) = .ok (m2, out) ∧ Step H512 true t' s1 (.range x y max) out s2) := by
  have hkA : ∀ k ∈ calls, k.offer ∈ allAdded (h ++ calls.map (fun k => (k.time, .addDht k.offer))) := fun k hk =>
    List.mem_flatMap.2 ⟨(k.time, .addDht k.offer), List.mem_append_right _ (List.mem_map.mpr ⟨k, hk, rfl⟩), by simp [added]⟩
  have hsub : ∀ e ∈ h, ∀ p ∈ added e.2, p ∈ allAdded (h ++ calls.map (fun k => (k.time, .addDht k.offer))) ∧ InRange p := by
    intro e hem p hp
    have : p ∈ allAdded (h ++ calls.map (fun k => (k.time, .addDht k.offer))) := List.mem_flatMap.2 ⟨e, List.mem_append_left _ hem, hp⟩
    exact ⟨this, hh.1 p this⟩
  have hpc : ∀ k ∈ calls, Proper k.cid := fun k hk => (hh.1 _ (hkA k hk)).2.1 k.cid (by rw [(hcid k hk).1]; simp)
  obtain ⟨m, outs, s, e1, e2, e3, e4⟩ := steps_strict (order := order) (orderE := orderE) hord hordE hh.2.2 h (sinv_new _) ringInv_new hsub
    (fun e hem => hh.2.1 e (List.mem_append_left _ hem)) hs
  have hoff : ∀ d, d ∈ s.offered ↔ d ∈ dhtCids h := by
    intro d
    rw [offered_steps h e2 d]
    simp [noOffers]
  -- the ends of ranges that are not on offer, each once
  obtain ⟨T, hT1, hT2⟩ := once ((qs.flatMap (fun q => [q.lo, q.hi])).filter (fun c => decide (c ∉ s.offered)))
  have hT : ∀ c, c ∈ T ↔ c ∉ s.offered ∧ ∃ q ∈ qs, c = q.lo ∨ c = q.hi := by
    intro c
    rw [hT2, List.mem_filter, List.mem_flatMap]
    simp only [List.mem_cons, List.not_mem_nil, or_false, decide_eq_true_eq]
    exact and_comm
  have hl : ∀ i < calls.length, (calls ++ T.map (fun c => (⟨⟨0, 0⟩, ⟨none, [], 0, 0, 0, [], []⟩, c⟩ : Call)))[i]? = calls[i]? := fun i hi =>
    List.getElem?_append_left hi
  have hrt : ∀ (i : Nat) k, calls.length ≤ i → (calls ++ T.map (fun c => (⟨⟨0, 0⟩, ⟨none, [], 0, 0, 0, [], []⟩, c⟩ : Call)))[i]? = some k →
      T[i - calls.length]? = some k.cid := by
    intro i k hi hk
    rw [List.getElem?_append_right hi, List.getElem?_map, Option.map_eq_some_iff] at hk
    obtain ⟨c, hc, rfl⟩ := hk
    exact hc
  have hnew : ∀ (i : Nat) k, (calls ++ T.map (fun c => (⟨⟨0, 0⟩, ⟨none, [], 0, 0, 0, [], []⟩, c⟩ : Call)))[i]? = some k → Newcomer (dhtCids h) calls qs k.cid := by
    intro i k hk
    by_cases hi : i < calls.length
    · rw [hl i hi] at hk
      have hkm := List.mem_of_getElem? hk
      exact ⟨(hcid k hkm).2.2.1, .inl ⟨k, hkm, rfl⟩⟩
    · have := (hT k.cid).1 (List.mem_of_getElem? (hrt i k (Nat.le_of_not_lt hi) hk))
      exact ⟨fun hm => this.1 ((hoff _).2 hm), .inr this.2⟩
  have hdiff : ∀ (i j : Nat) k k', i ≠ j → (calls ++ T.map (fun c => (⟨⟨0, 0⟩, ⟨none, [], 0, 0, 0, [], []⟩, c⟩ : Call)))[i]? = some k →
      (calls ++ T.map (fun c => (⟨⟨0, 0⟩, ⟨none, [], 0, 0, 0, [], []⟩, c⟩ : Call)))[j]? = some k' → k.cid ≠ k'.cid := by
    intro i j k k' hij hi hj e
    have mix : ∀ (a b : Nat) ka kb, a < calls.length → calls.length ≤ b →
        (calls ++ T.map (fun c => (⟨⟨0, 0⟩, ⟨none, [], 0, 0, 0, [], []⟩, c⟩ : Call)))[a]? = some ka →
        (calls ++ T.map (fun c => (⟨⟨0, 0⟩, ⟨none, [], 0, 0, 0, [], []⟩, c⟩ : Call)))[b]? = some kb → ka.cid ≠ kb.cid := by
      intro a b ka kb ha hb hka hkb e
      rw [hl a ha] at hka
      obtain ⟨_, q, hqm, hc⟩ := (hT kb.cid).1 (List.mem_of_getElem? (hrt b kb hb hkb))
      rw [← e] at hc
      have := (hcid ka (List.mem_of_getElem? hka)).2.2.2 q hqm
      exact hc.elim this.1 this.2
    by_cases h1 : i < calls.length <;> by_cases h2 : j < calls.length
    · rw [hl i h1] at hi
      rw [hl j h2] at hj
      exact hij (nodup_at (c := k.cid) hone (by rw [List.getElem?_map, hi]; rfl) (by rw [List.getElem?_map, hj, e]; rfl))
    · exact mix i j k k' h1 (Nat.le_of_not_lt h2) hi hj e
    · exact mix j i k' k h2 (Nat.le_of_not_lt h1) hj hi e.symm
    · have := nodup_at hT1 (hrt i k (Nat.le_of_not_lt h1) hi) (e ▸ hrt j k' (Nat.le_of_not_lt h2) hj)
      omega
  have he : Ext calls qs s.offered (calls ++ T.map (fun c => (⟨⟨0, 0⟩, ⟨none, [], 0, 0, 0, [], []⟩, c⟩ : Call))) := by
    refine ⟨hl, fun i k hi hk => (hT k.cid).1 (List.mem_of_getElem? (hrt i k hi hk)), ?_, fun k hk => ⟨?_, (hcid k hk).2.2.2⟩, hq, ?_⟩
    · intro c hn hb
      obtain ⟨i, hi, hic⟩ := List.mem_iff_getElem.mp ((hT c).2 ⟨hn, hb⟩)
      refine ⟨calls.length + i, ⟨⟨0, 0⟩, ⟨none, [], 0, 0, 0, [], []⟩, c⟩, by omega, ?_, rfl⟩
      rw [List.getElem?_append_right (by omega), Nat.add_sub_cancel_left, List.getElem?_map, List.getElem?_eq_getElem hi, hic]
      rfl
    · rw [hoff]
      exact (hcid k hk).2.2.1
    · intro i j q q' hij hi hj c hc hc'
      rw [hoff]
      rw [List.pairwise_iff_getElem] at hown
      obtain ⟨hi1, hi2⟩ := List.getElem?_eq_some_iff.mp hi
      obtain ⟨hj1, hj2⟩ := List.getElem?_eq_some_iff.mp hj
      rcases Nat.lt_or_gt_of_ne hij with hlt | hlt
      · have := hown i j hi1 hj1 hlt c
        rw [hi2, hj2] at this
        exact this hc hc'
      · have := hown j i hj1 hi1 hlt c
        rw [hi2, hj2] at this
        exact this hc' hc
  have hsp : Spread (calls ++ T.map (fun c => (⟨⟨0, 0⟩, ⟨none, [], 0, 0, 0, [], []⟩, c⟩ : Call))) s.offered := by
    have hat : ∀ k ∈ calls ++ T.map (fun c => (⟨⟨0, 0⟩, ⟨none, [], 0, 0, 0, [], []⟩, c⟩ : Call)), Newcomer (dhtCids h) calls qs k.cid := by
      intro k hk
      obtain ⟨i, hi, hik⟩ := List.mem_iff_getElem.mp hk
      exact hnew i k (by rw [List.getElem?_eq_getElem hi, hik])
    refine ⟨fun k hk => ?_, e4.1, fun k hk => ?_, fun k hk => ?_, fun k hk => ?_, ?_⟩
    · rcases (hat k hk).2 with ⟨k', hk', he⟩ | ⟨q, hqm, he | he⟩
      · rw [he]; exact hpc k' hk'
      · rw [he]; exact (hq q hqm).1
      · rw [he]; exact (hq q hqm).2.1
    · rw [hoff]
      exact (hat k hk).1
    · obtain ⟨d, hd, hlt⟩ := (hends _ (hat k hk)).1
      exact ⟨d, (hoff d).2 hd, hlt⟩
    · obtain ⟨d, hd, hlt⟩ := (hends _ (hat k hk)).2
      exact ⟨d, (hoff d).2 hd, hlt⟩
    · intro i j k k' hij hi hj
      obtain ⟨d, hd, hb⟩ := hsep _ _ (hnew i k hi) (hnew j k' hj) (hdiff i j k k' hij hi hj)
      exact ⟨d, (hoff d).2 hd, hb⟩
  generalize (calls ++ T.map (fun c => (⟨⟨0, 0⟩, ⟨none, [], 0, 0, 0, [], []⟩, c⟩ : Call))) = ext at hl hrt hnew hdiff he hsp
  have hf : Fresh (allAdded (h ++ calls.map (fun k => (k.time, .addDht k.offer)))) calls :=
    fun k hk => ⟨(hcid k hk).1, (hcid k hk).2.1, hkA k hk, hh.1 _ (hkA k hk)⟩
  obtain ⟨hprop, l, ⟨as, hl0⟩, hm⟩ := e4
  have hr0 : BothOk calls qs s.offered ext ⟨⟨m, fun _ => .begun⟩, fun _ => .begun⟩ (fun _ => .begun) as l := by
    refine ⟨⟨hl0, fun y => ?_, fun i k q _ hq => by simp at hq, fun i j k k' p p' _ _ _ hq _ => by simp at hq⟩, fun _ _ => rfl, fun i k _ _ => .inr ⟨rfl, ?_⟩⟩
    · rw [hm]
      simp [isIn]
    · rintro ⟨j, q, _, hp, _⟩
      cases hp
  have hs0 : StoreOk H512 (allAdded (h ++ calls.map (fun k => (k.time, .addDht k.offer)))) calls s ⟨m, fun _ => .begun⟩ [] s :=
    ⟨List.nodup_nil, by simp, by simp, ⟨rfl, rfl⟩, e3⟩
  obtain ⟨b1, st1, as1, l1, ord1, s1, f1, f3, f4, f5⟩ := playBoth_both hh.2.2 hf hsp he (base := fun _ => s.offered) (fun _ d hd => ⟨hprop d hd, .inl hd⟩) sch1
    hr0 hs0 (fun j q _ d hd => (hm _).2 (List.mem_map.mpr ⟨d, hd, rfl⟩))
  -- a listing that has not begun will find what is on the ring now
  have onIn : ∀ d, d ∈ onRing calls s.offered b1.world → Ids.toStr d ∈ l1 := by
    intro d hd
    rw [f3.ring.vals]
    rcases mem_onRing.1 hd with h | ⟨i, k, hk, hin, rfl⟩
    · exact .inl (List.mem_map.mpr ⟨d, h, rfl⟩)
    · have hi : i < calls.length := (List.getElem?_eq_some_iff.mp hk).1
      refine .inr ⟨i, k, by rw [hl i hi]; exact hk, ?_, rfl⟩
      show isIn (st1 i) = true
      rw [f3.old i hi]
      exact hin
  obtain ⟨b2, st2, as2, l2, ord2, s2, g1, g3, g4, g5⟩ := playBoth_both hh.2.2 hf hsp he
    (base := fun j => match b1.look j with | .begun => onRing calls s.offered b1.world | _ => s.offered) (fun j d hd => by
      split at hd
      · rcases mem_onRing.1 hd with h | ⟨i, k, hk, _, rfl⟩
        · exact ⟨hprop d h, .inl h⟩
        · exact ⟨hpc k (List.mem_of_getElem? hk), .inr ⟨k, List.mem_of_getElem? hk, rfl⟩⟩
      · exact ⟨hprop d hd, .inl hd⟩) sch2 (b := b1) f3 f4 (fun j q hj => by
      have hj5 := f5 j q hj
      cases hst : b1.look j with
      | begun => exact fun d hd => onIn d hd
      | _ => rw [hst] at hj5; exact hj5)
  refine ⟨m, outs, b1, b2, e1, f1, g1, ?_, fun hall hans => ?_⟩
  · intro j q hj
    have hj5 := g5 j q hj
    refine ⟨fun hst => ?_, fun res hres => ?_⟩
    · rw [hst] at hj5
      exact hj5
    · rw [hres] at hj5
      obtain ⟨off, es, k1, k2, k3, k4⟩ := hj5
      refine ⟨off, es, k1, k2, fun d hd => k3 d ?_, fun hb i k ok hk hst => k3 k.cid ?_, fun d hd => ?_⟩
      · split
        · exact mem_onRing.2 (.inl ((hoff d).2 hd))
        · exact (hoff d).2 hd
      · rw [hb]
        exact mem_onRing.2 (.inr ⟨i, k, hk, by rw [hst]; rfl, rfl⟩)
      · exact (k4 d hd).imp_left (hoff d).1
  · refine settled hord hordE hh.2.2 e2 hprop (fun k hk => (hcid k hk).1) hpc g4 g3.ring.ring (fun y => ?_) hall
    rw [g3.ring.vals]
    refine or_congr_right ⟨?_, ?_⟩
    · rintro ⟨i, k, hk, hin, hy⟩
      by_cases hi : i < calls.length
      · refine ⟨i, k, by rw [← hl i hi]; exact hk, ?_, hy⟩
        rw [← g3.old i hi]
        exact hin
      · exfalso
        rcases g3.tmp i k (Nat.le_of_not_lt hi) hk with ⟨_, j, q, hj, hp, _⟩ | ⟨h1, _⟩
        · obtain ⟨res, hres⟩ := hans j (List.getElem?_eq_some_iff.mp hj).1
          rw [hres] at hp
          cases hp
        · simp only [h1] at hin
          cases hin
    · rintro ⟨i, k, hk, hin, hy⟩
      have hi : i < calls.length := (List.getElem?_eq_some_iff.mp hk).1
      refine ⟨i, k, by rw [hl i hi]; exact hk, ?_, hy⟩
      show isIn (st2 i) = true
      rw [g3.old i hi]
      exact hin

/-- While 2, 5, 9 and 12 are on offer, content 10 is published; meanwhile 3 to 7 and 12 to 5 are listed. -/
def exRanges : List Query := [⟨Merkle.exId 3, Merkle.exId 7⟩, ⟨Merkle.exId 12, Merkle.exId 5⟩]

def exTen : List Call := [⟨⟨1002, 1⟩, exDht 10 2000, Merkle.exId 10⟩]

theorem exRanges_newcomer {c : Id} (h : Newcomer (dhtCids exH4) exTen exRanges c) : c = Merkle.exId 3 ∨ c = Merkle.exId 7 ∨ c = Merkle.exId 10 := by
  obtain ⟨hn, h⟩ := h
  rw [exH4_cids] at hn
  rcases h with ⟨k, hk, rfl⟩ | ⟨q, hq, h⟩
  · simp only [exTen, List.mem_singleton] at hk
    subst hk
    exact .inr (.inr rfl)
  · simp only [exRanges, List.mem_cons, List.not_mem_nil, or_false] at hq
    rcases hq with rfl | rfl <;> rcases h with rfl | rfl
    · exact .inl rfl
    · exact .inr (.inl rfl)
    · exact absurd (by simp) hn
    · exact absurd (by simp) hn

example (sch1 sch2 : List (Nat ⊕ Nat)) := C177_ranges_partial (H512 := fun x => x) (order := fun l => l) (orderE := fun l => l) (fun _ => .refl _) (fun _ => .refl _) exH4 exTen
  exRanges
  (by
    intro k hk
    simp only [exTen, List.mem_singleton] at hk
    subst hk
    rw [exH4_cids]
    exact ⟨rfl, by decide +kernel, by decide +kernel, by decide +kernel⟩)
  (by simp [exTen])
  (by
    intro q hq
    simp only [exRanges, List.mem_cons, List.not_mem_nil, or_false] at hq
    rcases hq with rfl | rfl <;> exact ⟨Merkle.exId_proper _, Merkle.exId_proper _, by decide +kernel⟩)
  (by
    rw [exH4_cids]
    refine .cons ?_ (.cons (by simp) .nil)
    intro q hq c hc hc'
    simp only [List.mem_singleton] at hq
    subst hq
    rcases hc' with rfl | rfl <;> simp)
  (by
    intro c hc
    rw [exH4_cids]
    rcases exRanges_newcomer hc with rfl | rfl | rfl <;>
      exact ⟨⟨Merkle.exId 2, by decide +kernel, by decide +kernel⟩, ⟨Merkle.exId 12, by decide +kernel, by decide +kernel⟩⟩)
  (by
    intro c c' hc hc' hne
    rw [exH4_cids]
    rcases exRanges_newcomer hc with rfl | rfl | rfl <;> rcases exRanges_newcomer hc' with rfl | rfl | rfl
    · exact absurd rfl hne
    · exact ⟨Merkle.exId 5, by decide +kernel, by decide +kernel⟩
    · exact ⟨Merkle.exId 5, by decide +kernel, by decide +kernel⟩
    · exact ⟨Merkle.exId 5, by decide +kernel, by decide +kernel⟩
    · exact absurd rfl hne
    · exact ⟨Merkle.exId 9, by decide +kernel, by decide +kernel⟩
    · exact ⟨Merkle.exId 5, by decide +kernel, by decide +kernel⟩
    · exact ⟨Merkle.exId 9, by decide +kernel, by decide +kernel⟩
    · exact absurd rfl hne)
  (by
    refine ⟨?_, ?_, fun o _ o' _ b b' _ _ h => h⟩
    · intro o ho
      simp [exH4, exH, exTen, allAdded, added] at ho
      rcases ho with rfl | rfl | rfl | rfl | rfl <;> exact exDht_inRange _
    · intro e he
      simp only [exH4, exH, exTen, List.map_cons, List.map_nil, List.cons_append, List.nil_append, List.mem_cons, List.mem_nil_iff, or_false] at he
      rcases he with rfl | rfl | rfl | rfl | rfl <;> simp [ProperOp])
  exH4_safe sch1 sch2

/-- The second listing meets 3, the end of the first one's range, which is not on offer; the first answers 5, and all come to their end. -/
example : (execAll (fun x => x) (fun l => l) (fun l => l) newMgr exH4).toOption.any (fun e =>
    (playBoth (fun x => x) exTen exRanges ⟨⟨e.1, fun _ => .begun⟩, fun _ => .begun⟩
      [.inl 0, .inr 0, .inr 1, .inl 0, .inr 1, .inr 0, .inl 0, .inr 1, .inr 0]).toOption.any (fun b =>
        (match b.look 0 with | .answered res => decide (res = [Ids.toStr (Merkle.exId 5)]) | _ => false) &&
        (match b.look 1 with | .answered res => decide (res = [12, 2, 3, 5].map (fun n => Ids.toStr (Merkle.exId n))) | _ => false) &&
        (match b.world.stage 0 with | .done ok => ok | _ => false))) = true := by decide +kernel

end FcRetrieval.RingShared
