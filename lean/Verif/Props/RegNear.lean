import Verif.Model.RegNear
import Verif.Props.RegMgrMore
/-!
# C94: lookups by nearness that run at the same time
-/

set_option linter.unusedSimpArgs false

namespace FcRetrieval.RegMgr
open FcRetrieval.Ids (Id)
open FcRetrieval.Ring (Fault Ret Hex IsRing keyOf circ)
open FcRetrieval.Register (Record)

theorem nodup_le {α : Type} [DecidableEq α] : ∀ {l k : List α}, l.Nodup → (∀ x ∈ l, x ∈ k) → l.length ≤ k.length
  | [], _, _, _ => Nat.zero_le _
  | a :: l, k, hn, h => by
    have ha := h a List.mem_cons_self
    have hn' := List.nodup_cons.1 hn
    have ih := nodup_le (k := k.erase a) hn'.2 (fun x hx => by
      have hne : x ≠ a := by rintro rfl; exact hn'.1 hx
      exact (List.mem_erase_of_ne hne).2 (h x (List.mem_cons_of_mem _ hx)))
    rw [List.length_erase_of_mem ha] at ih
    have := List.length_pos_of_mem ha
    simp only [List.length_cons]
    omega

theorem resolve_same {a b : Mgr} (h : a.gateways = b.gateways) : ∀ {ids : List Hex}, resolve a ids = resolve b ids
  | [] => rfl
  | x :: ids => by simp only [resolve, h, resolve_same h (ids := ids)]

theorem resolve_some {m : Mgr} : ∀ {ids : List Hex} {rs : List Record}, resolve m ids = some rs → ∀ x ∈ ids, (mget m.gateways x).isSome = true
  | [], _, _, x, hx => by simp at hx
  | y :: ids, rs, h, x, hx => by
    simp only [resolve, Option.bind_eq_bind] at h
    cases hg : mget m.gateways y with
    | none => simp [hg] at h
    | some r =>
      rw [hg, Option.bind_some] at h
      obtain ⟨rs', h1, _⟩ := Option.bind_eq_some_iff.1 h
      rcases List.mem_cons.1 hx with rfl | hx
      · rw [hg]; rfl
      · exact resolve_some h1 x hx

/-- C94: the two parts, one after the other, are the lookup. -/
theorem C94_two_parts {m : Mgr} (hd : m.gatewayDiscv = true) {cid : Id} (hv : Ring.validateInput (Ids.toStr cid) = true) {num : Int} (hn : 1 ≤ num)
    (hle : min num 16 ≤ m.ring.size) :
    getGatewaysNear m cid num none = (do
      let m1 ← nearBegin m cid
      nearRest m1 cid (min num 16) (m1.ring.size ≠ m.ring.size)) := by
  have h0 : ¬ (min num 16 = 0) := by omega
  have h1 : ¬ (m.ring.size = 0) := by omega
  have h2 : ¬ (min num 16 > (m.ring.size : Int)) := by omega
  simp only [getGatewaysNear, cap_eq, hd, Bool.true_eq_false, false_and, if_false, Ring.getClosest, hv, h0, h1, h2, ne_eq,
    not_true_eq_false, or_self, Ring.closestBody, Ring.insertSearchRemove, nearBegin, bind, Except.bind, pure, Except.pure]
  cases Ring.insert m.ring (Ids.toStr cid) with
  | error e => rfl
  | ok r1 =>
    simp only
    by_cases hs : r1.size = m.ring.size
    · simp only [hs, if_true, nearRest, not_true_eq_false, decide_false, Bool.false_eq_true, if_false, bind, Except.bind, pure, Except.pure, nearAnswer]
      by_cases hone : min num 16 = 1
      · simp only [hone, if_true]
        rw [resolve_same (a := ⟨m.started, true, m.providerDiscv, m.gateways, r1, m.providers⟩) (b := m) (ids := [Ids.toStr cid]) rfl]
        cases resolve m [Ids.toStr cid] <;> rfl
      · simp only [hone, if_false]
        cases Ring.searchAndExpand r1 (Ids.toStr cid) (min num 16) [Ids.toStr cid] with
        | error e => rfl
        | ok ids =>
          simp only
          rw [resolve_same (a := ⟨m.started, true, m.providerDiscv, m.gateways, r1, m.providers⟩) (b := m) (ids := ids) rfl]
          cases resolve m ids <;> rfl
    · simp only [hs, if_false, nearRest, not_false_eq_true, decide_true, if_true, bind, Except.bind, pure, Except.pure, nearAnswer]
      cases Ring.searchAndExpand r1 (Ids.toStr cid) (min num 16) [] with
      | error e => rfl
      | ok ids =>
        simp only
        cases Ring.remove r1 (Ids.toStr cid) with
        | error e => rfl
        | ok r2 =>
          simp only
          rw [resolve_same (a := ⟨m.started, true, m.providerDiscv, m.gateways, r2, m.providers⟩) (b := m) (ids := ids) rfl]
          cases resolve m ids <;> rfl
/-- **C94 (refuted).** While one lookup for the CID `a`, which is no gateway, is between its two parts, another lookup, for `b`, fails whenever fewer
gateways than it asks for are as near to `b` as `a` is: it finds `a` in the ring, and no gateway of that name in the table. (Alone it
succeeds: `C44_nearest_partial`.) -/
theorem C94_interference_refuted {m : Mgr} {l : List Hex} (hc : Consistent m l) (hd : m.gatewayDiscv = true) {a b : Id}
    (ha : Ids.Proper a) (hb : Ids.Proper b) (hna : Ids.toStr a ∉ l) {num : Int} (hle : min num 16 ≤ l.length)
    (hfew : ((l.filter (fun x => circ (Ids.position b) (keyOf x) ≤ circ (Ids.position b) (Ids.position a))).length : Int) < min num 16) :
    ∃ m1 m2, nearBegin m a = .ok m1 ∧ getGatewaysNear m1 b num none = .ok (m2, .err) := by
  have hca : Canonical (Ids.toStr a) := ⟨a, ha, rfl⟩
  have hcb : Canonical (Ids.toStr b) := ⟨b, hb, rfl⟩
  have hka := OfferMgr.keyOf_toStr ha
  have hkb := OfferMgr.keyOf_toStr hb
  obtain ⟨r1, e1, hr1⟩ := Ring.insert_eq hc.ring (canonical_valid hca)
  have hsp := canonical_spelling hc.canonical hca
  have hmem : ∀ x, x ∈ Ring.addSorted (Ids.toStr a) l → x = Ids.toStr a ∨ x ∈ l := fun x hx => Ring.mem_addSorted hx
  have hcan1 : ∀ x ∈ Ring.addSorted (Ids.toStr a) l, Canonical x := by
    intro x hx
    rcases hmem x hx with rfl | hx
    · exact hca
    · exact hc.canonical x hx
  have hlen : l.length ≤ (Ring.addSorted (Ids.toStr a) l).length := by
    have hsub : ∀ x ∈ l, x ∈ Ring.addSorted (Ids.toStr a) l := fun x hx => Ring.addSorted_mem hx
    exact nodup_le (Ring.isRing_nodup hc.ring) hsub
  obtain ⟨r', ids, g1, g2, g3, g4, g5, _⟩ := Ring.C03_getClosest_nearest hr1 (canonical_valid hcb) (canonical_spelling hcan1 hcb) (num := min num 16)
    (by omega) (by omega)
  have hin : Ids.toStr a ∈ ids := by
    apply Classical.byContradiction
    intro hni
    have hall : ∀ y ∈ ids, y ∈ l.filter (fun x => circ (Ids.position b) (keyOf x) ≤ circ (Ids.position b) (Ids.position a)) := by
      intro y hy
      refine List.mem_filter.2 ⟨?_, ?_⟩
      · rcases hmem y (g4 y hy) with rfl | h
        · exact absurd hy hni
        · exact h
      · have := g5 y hy (Ids.toStr a) (Ring.mem_addSorted_self hsp) hni
        rw [hkb, hka] at this
        simpa using this
    have := nodup_le g3 hall
    omega
  have hres : resolve m ids = none := by
    cases h : resolve m ids with
    | none => rfl
    | some rs =>
      have h1 := resolve_some h _ hin
      exact absurd ((hc.same _).2 ((mget_isSome_iff _ _).1 h1)) hna
  refine ⟨{ m with ring := r1 }, { m with ring := r' }, ?_, ?_⟩
  · simp only [nearBegin, e1, bind, Except.bind, pure, Except.pure]
  · simp only [getGatewaysNear, cap_eq, hd, g1, bind, Except.bind, pure, Except.pure, Bool.true_eq_false, false_and, if_false]
    rw [resolve_same (a := ⟨m.started, true, m.providerDiscv, m.gateways, r1, m.providers⟩) (b := m) (ids := ids) rfl, hres]

/-- Gateways 1111…, 2222…, 3333…, 4444…; a lookup for 2525… is under way, one for 2626… comes. -/
example : ∃ m l, Consistent m l ∧ m.gatewayDiscv = true ∧ Ids.toStr (exId 0x25) ∉ l ∧ min (2 : Int) 16 ≤ l.length ∧
    ((l.filter (fun x => circ (Ids.position (exId 0x26)) (keyOf x) ≤ circ (Ids.position (exId 0x26)) (Ids.position (exId 0x25)))).length : Int) < min 2 16 := by
  obtain ⟨m, _, _, h3, h4⟩ := exMgr_consistent
  exact ⟨m, _, h4, h3, by decide +kernel, by decide, by decide +kernel⟩

end FcRetrieval.RegMgr
