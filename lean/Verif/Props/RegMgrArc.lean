import Verif.Props.RegMgrMore
import Verif.Lemmas.RingWindow
import Verif.Lemmas.RingSmallest
import Verif.Spec.RegMgrArc
/-!
# The range of a gateway in a large network (C93)
-/

set_option linter.unusedSimpArgs false

namespace FcRetrieval.RegMgr
open FcRetrieval.Ids (Id Proper position)
open FcRetrieval.Ring (Fault Hex IsRing validateInput keyOf circ cw Ret)
open FcRetrieval.Register (Record Service Kind)

theorem idsOf : ∀ {xs : List Hex}, (∀ x ∈ xs, Canonical x) → ∃ ids : List Id, ids.map Ids.toStr = xs ∧ ∀ i ∈ ids, Proper i
  | [], _ => ⟨[], rfl, by simp⟩
  | x :: xs, h => by
    obtain ⟨i, hi, rfl⟩ := h x (by simp)
    obtain ⟨ids, h1, h2⟩ := idsOf (xs := xs) (fun y hy => h y (by simp [hy]))
    exact ⟨i :: ids, by simp [h1], by simpa using ⟨hi, h2⟩⟩

/-- The range of a gateway in a network of 17 gateways or more, with the nearest ones before it (`L`) and after it (`R`), and the rest (`M`). -/
theorem arc_core {m : Mgr} {l : List Hex} (hc : Consistent m l) (hd : m.gatewayDiscv = true) {id : Id} (hp : Proper id)
    (hin : Ids.toStr id ∈ l) (hne : l.head? ≠ some (Ids.toStr id)) (hlen : 17 ≤ l.length) :
    ∃ m' lo hi near, getGatewayCIDRange m id = .ok (m', .val (lo, hi)) ∧ Nearest l id near ∧ near.length = 16 ∧ lo ∈ near ∧ hi ∈ near ∧
      (∀ g ∈ near, InArc lo hi g) ∧ (∀ g : Id, Proper g → Ids.toStr g ∈ l → g ≠ id → InArc lo hi g → g ∈ near) ∧
      ∃ R M L : List Hex, (L ++ R).length = 16 ∧ (∀ g ∈ near, Ids.toStr g ∈ L ++ R) ∧ (∀ x ∈ L ++ R, ∃ g ∈ near, Ids.toStr g = x) ∧ (InArc lo hi id ↔ L ≠ [] ∧ R ≠ []) ∧
        (R ++ M ++ L).Perm (l.erase (Ids.toStr id)) ∧
        (R ++ M ++ L).Pairwise (fun a b => cw (keyOf (Ids.toStr id)) (keyOf a) < cw (keyOf (Ids.toStr id)) (keyOf b)) ∧
        (M ≠ [] → ∀ g ∈ near, (Ids.toStr g ∈ R → Ahead id g) ∧ (Ids.toStr g ∈ L → Ahead g id)) ∧
        (l.length = 17 → R ≠ [] ∧ ∀ rest q p, R ++ M ++ L = rest ++ [q, p] →
          (L = [] ↔ cw (keyOf (Ids.toStr id)) (keyOf q) < cw (keyOf p) (keyOf (Ids.toStr id)))) := by
  have hcan : Canonical (Ids.toStr id) := ⟨id, hp, rfl⟩
  have hv := canonical_valid hcan
  have hnd := Ring.isRing_nodup hc.ring
  have hlen1 : (l.erase (Ids.toStr id)).length = l.length - 1 := List.length_erase_of_mem hin
  have hclean : Ring.CleanRemove l (Ids.toStr id) := ⟨fun h => by omega, fun _ => hne⟩
  have hmem : ∀ x, x ∈ l.erase (Ids.toStr id) ↔ x ≠ Ids.toStr id ∧ x ∈ l := fun x => hnd.mem_erase_iff
  obtain ⟨r1, hrem, hr1⟩ := Ring.remove_clean hc.ring hv hclean
  have hsp : Ring.SameSpelling (l.erase (Ids.toStr id)) (Ids.toStr id) :=
    fun y hy => canonical_spelling hc.canonical hcan y ((hmem y).1 hy).2
  have hl0 : l.erase (Ids.toStr id) ≠ [] := by
    intro h; rw [h] at hlen1; simp at hlen1; omega
  obtain ⟨r2, res, R, M, L, h1, ⟨lo', hi', h2, h3, hlo', hhi'⟩, h4, h5, h6, h7, hends⟩ :=
    Ring.insertSearchRemove_eq (num := 16) hr1 hv hsp hl0 (by omega) (by decide)
  have hbody : ∀ q, IsRing q (l.erase (Ids.toStr id)) → Ring.remove m.ring (Ids.toStr id) = .ok q →
      Ring.closestBody q (Ids.toStr id) 16 = .ok (r2, res) := by
    intro q hq hq2
    rw [hrem] at hq2
    cases hq2
    have hs := Ring.isRing_size hr1
    simp only [Ring.closestBody, hs]
    rw [if_neg (by omega)]
    exact h1
  have hget : ∃ r3, Ring.getClosest m.ring (Ids.toStr id) 16 (Ids.toStr id) = .ok (r3, .val res) := by
    have := Ring.getClosest_exclude hc.ring hv hv (by omega) hclean (by decide) hbody
    rcases h7 with ⟨h7, _⟩ | ⟨_, _, _, h7⟩
    · obtain ⟨r3, h, _⟩ := this.1 h7; exact ⟨r3, h⟩
    · exact this.2 h7
  obtain ⟨r3, hget⟩ := hget
  have hperm : (R ++ M ++ L).Perm (l.erase (Ids.toStr id)) := by
    rw [← h3, h2]; exact List.perm_append_comm
  have hall : ∀ x ∈ R ++ M ++ L, x ≠ Ids.toStr id ∧ x ∈ l := fun x hx => (hmem x).1 (hperm.mem_iff.1 hx)
  have hin' : ∀ x ∈ res, x ∈ R ++ M ++ L := by
    rw [h4]; intro x hx; simp only [List.mem_append] at hx ⊢; grind
  have hsub : ∀ x ∈ res, x ∈ l := fun x hx => (hall x (hin' x hx)).2
  have hlenres : res.length = 16 := by omega
  obtain ⟨rs, h8, h9, _⟩ := resolve_eq hc hsub
  obtain ⟨near, hn1, hn2⟩ := idsOf (xs := res) (fun x hx => hc.canonical x (hsub x hx))
  have hnearlen : near.length = 16 := by rw [← hlenres, ← hn1]; simp
  have hnn : near ≠ [] := by rintro rfl; simp at hnearlen
  obtain ⟨lo, hlo⟩ : ∃ lo, near.head? = some lo := by cases near with
    | nil => exact absurd rfl hnn
    | cons a _ => exact ⟨a, rfl⟩
  obtain ⟨hi, hhi⟩ : ∃ hi, near.getLast? = some hi := ⟨_, List.getLast?_eq_some_getLast hnn⟩
  have hlom := List.mem_of_head? hlo
  have hhim := List.mem_of_getLast? hhi
  have hloS : res.head? = some (Ids.toStr lo) := by rw [← hn1, List.head?_map, hlo]; rfl
  have hhiS : res.getLast? = some (Ids.toStr hi) := by rw [← hn1, List.getLast?_map, hhi]; rfl
  have hid : keyOf (Ids.toStr id) = position id := OfferMgr.keyOf_toStr hp
  have hpos : ∀ g ∈ near, keyOf (Ids.toStr g) = position g := fun g hg => OfferMgr.keyOf_toStr (hn2 g hg)
  have hk : ∀ y ∈ R ++ M ++ L, keyOf y < 2 ^ 256 :=
    fun y hy => Ring.keyOf_lt (canonical_valid (hc.canonical y (hall y hy).2))
  have hxk : keyOf (Ids.toStr id) < 2 ^ 256 := Ring.keyOf_lt hv
  have hkne : ∀ y ∈ R ++ M ++ L, keyOf (Ids.toStr id) ≠ keyOf y := by
    intro y hy he
    exact (hall y hy).1 (canonical_inj (hc.canonical y (hall y hy).2) hcan he.symm)
  have hsort : (R ++ M ++ L).Pairwise (fun a b => cw (keyOf (Ids.toStr id)) (keyOf a) < cw (keyOf (Ids.toStr id)) (keyOf b)) := by
    rw [← h3]
    refine Ring.rotated_sorted hxk ?_ ?_ hlo' hhi'
    · intro y hy
      exact hk y (hperm.mem_iff.2 (by rw [h2]; exact hy))
    · rw [← h2]; exact Ring.isRing_sorted hr1
  have hcont := Ring.window_contains hxk hk hkne hsort (by rw [← h4]; exact hloS) (by rw [← h4]; exact hhiS)
  have hinS : ∀ g : Id, g ∈ near → Ids.toStr g ∈ L ++ R := by
    intro g hg; rw [← h4, ← hn1]; exact List.mem_map.2 ⟨g, hg, rfl⟩
  have hofS : ∀ x ∈ L ++ R, ∃ g ∈ near, Ids.toStr g = x := by
    intro x hx; rw [← h4, ← hn1] at hx; exact List.mem_map.1 hx
  have hrest : ∀ g : Id, Proper g → Ids.toStr g ∈ l → g ≠ id → g ∉ near → Ids.toStr g ∈ M := by
    intro g hg hgl hgi hgn
    have hne' : Ids.toStr g ≠ Ids.toStr id := by
      intro he
      have e1 := Ids.fromHex_toStr hg
      rw [he, Ids.fromHex_toStr hp] at e1
      injection e1 with e1
      exact hgi e1.symm
    have hm := hperm.mem_iff.2 ((hmem _).2 ⟨hne', hgl⟩)
    have hno : Ids.toStr g ∉ L ++ R := by
      intro h
      obtain ⟨g', hg', he⟩ := hofS _ h
      have e1 := Ids.fromHex_toStr hg
      rw [← he, Ids.fromHex_toStr (hn2 g' hg')] at e1
      injection e1 with e1
      exact hgn (e1 ▸ hg')
    simp only [List.mem_append, not_or] at hm hno
    rcases hm with (h | h) | h
    · exact absurd h hno.2
    · exact h
    · exact absurd h hno.1
  have hplo := hpos lo hlom
  have hphi := hpos hi hhim
  refine ⟨{ m with ring := r3 }, lo, hi, near, ?_, ⟨?_, ?_, ?_⟩, hnearlen, hlom, hhim, ?_, ?_, ?_⟩
  · have hnear : getGatewaysNear m id 16 (some id) = .ok ({ m with ring := r3 }, .val rs) := by
      simp only [getGatewaysNear, hd, hget, h8, bind, Except.bind, pure, Except.pure, Bool.true_eq_false, false_and, if_false,
        show ¬ ((16 : Int) > 16) by decide]
    have hhead : (rs.map (·.nodeID)).head? = some (Ids.toStr lo) := by rw [h9]; exact hloS
    have hlast : (rs.map (·.nodeID)).getLast? = some (Ids.toStr hi) := by rw [h9]; exact hhiS
    rw [List.head?_map] at hhead
    rw [List.getLast?_map] at hlast
    obtain ⟨ra, hra, hra'⟩ := Option.map_eq_some_iff.1 hhead
    obtain ⟨rb, hrb, hrb'⟩ := Option.map_eq_some_iff.1 hlast
    have hl2 : ¬ rs.length < 2 := by
      have : rs.length = res.length := by rw [← h9]; simp
      rw [this, hlenres]; decide
    simp only [getGatewayCIDRange, Ids.fromHex_toStr hp, hnear, bind, Except.bind, pure, Except.pure, hra, hrb, if_neg hl2, hra', hrb',
      Ids.fromHex_toStr (hn2 lo hlom), Ids.fromHex_toStr (hn2 hi hhim)]
  · intro g hg
    have hgR : Ids.toStr g ∈ res := by rw [h4]; exact hinS g hg
    refine ⟨hn2 g hg, hsub _ hgR, ?_⟩
    rintro rfl
    exact (hall _ (hin' _ hgR)).1 rfl
  · have e1 : (L ++ R).Nodup := by
      have e2 : (R ++ M ++ L).Nodup := hperm.nodup_iff.2 (hnd.erase _)
      rw [List.nodup_append, List.nodup_append] at e2
      rw [List.nodup_append]
      exact ⟨e2.2.1, e2.1.1, fun a ha b hb he => e2.2.2 b (by simp [hb]) a ha he.symm⟩
    rw [← h4, ← hn1] at e1
    exact List.Pairwise.of_map _ (fun a b h e => h (e ▸ rfl)) e1
  · intro a ha g hg hgl hgi hgn
    have := h5 (Ids.toStr a) (by rw [h4]; exact hinS a ha) (Ids.toStr g) (hrest g hg hgl hgi hgn)
    rwa [hid, hpos a ha, OfferMgr.keyOf_toStr hg] at this
  · intro g hg
    have := hcont.2.1 _ (hinS g hg)
    rwa [hplo, hphi, hpos g hg] at this
  · intro g hg hgl hgi harc
    apply Classical.byContradiction
    intro hgn
    have := hcont.2.2 _ (hrest g hg hgl hgi hgn)
    rw [hplo, hphi, OfferMgr.keyOf_toStr hg] at this
    exact this harc
  · refine ⟨R, M, L, by rw [← h4]; exact hlenres, hinS, hofS, ?_, hperm, hsort, ?_, ?_⟩
    · have := hcont.1
      rwa [hplo, hphi, hid] at this
    · intro hM g hg
      have hsides := Ring.window_sides hxk hk hkne hsort hM (by rw [← h4]; exact h5)
      constructor
      · intro h; have := hsides.1 _ h; rwa [hid, hpos g hg] at this
      · intro h; have := hsides.2 _ h; rwa [hid, hpos g hg] at this
    · intro h17
      refine hends (fun y hy => ?_) (by rw [hlen1, h17]; rfl)
      exact fun he => hkne y (hperm.mem_iff.2 hy) he.symm

/-- **C93 (partial).** In a network of 18 gateways or more, the range of a gateway that is not the smallest one is the arc of its 16 nearest
other gateways: it contains these and, but for the gateway itself, no others.  It contains the gateway itself *exactly when* there are gateways
on both of its sides among these 16.  Missing: the range of a gateway whose 16 nearest all lie on one side does not contain it, nor do those
of smaller networks (`C93_range_exact`). -/
theorem C93_arc_partial {m : Mgr} {l : List Hex} (hc : Consistent m l) (hd : m.gatewayDiscv = true) {id : Id} (hp : Proper id)
    (hin : Ids.toStr id ∈ l) (hne : l.head? ≠ some (Ids.toStr id)) (hlen : 18 ≤ l.length) :
    ∃ m' lo hi near, getGatewayCIDRange m id = .ok (m', .val (lo, hi)) ∧ Nearest l id near ∧ near.length = 16 ∧ lo ∈ near ∧ hi ∈ near ∧
      (∀ g ∈ near, InArc lo hi g) ∧ (∀ g : Id, Proper g → Ids.toStr g ∈ l → g ≠ id → InArc lo hi g → g ∈ near) ∧
      (InArc lo hi id ↔ (∃ a ∈ near, Ahead id a) ∧ (∃ b ∈ near, Ahead b id)) := by
  obtain ⟨m', lo, hi, near, k1, k2, k3, k4, k5, k6, k7, R, M, L, hLR, hinS, hofS, e0, hperm, -, hsides, -⟩ := arc_core hc hd hp hin hne (by omega)
  refine ⟨m', lo, hi, near, k1, k2, k3, k4, k5, k6, k7, ?_⟩
  have hM : M ≠ [] := by
    rintro rfl
    have e1 := hperm.length_eq
    rw [List.length_erase_of_mem hin] at e1
    simp only [List.length_append, List.length_nil] at e1 hLR
    omega
  have side := hsides hM
  rw [e0]
  have excl : ∀ g : Id, ¬ (Ahead id g ∧ Ahead g id) := by
    intro g h; unfold Ahead at h; omega
  constructor
  · rintro ⟨hL, hR⟩
    obtain ⟨x, hx⟩ := List.exists_mem_of_ne_nil L hL
    obtain ⟨y, hy⟩ := List.exists_mem_of_ne_nil R hR
    obtain ⟨a, ha, rfl⟩ := hofS y (by simp [hy])
    obtain ⟨b, hb, rfl⟩ := hofS x (by simp [hx])
    exact ⟨⟨a, ha, (side a ha).1 hy⟩, ⟨b, hb, (side b hb).2 hx⟩⟩
  · rintro ⟨⟨a, ha, haa⟩, b, hb, hbb⟩
    constructor
    · rintro rfl
      exact excl b ⟨(side b hb).1 (by simpa using hinS b hb), hbb⟩
    · rintro rfl
      exact excl a ⟨haa, (side a ha).2 (by simpa using hinS a ha)⟩

/-- **C93 (partial)**, in a network of 17 gateways, for a gateway that is not the smallest one: the range contains all others.  Let `p` and `q` be the first two gateways that one meets going
counter-clockwise.  The range contains the gateway itself unless `q` is reached sooner clockwise than `p` counter-clockwise: the last of the sixteen always counts as lying clockwise. -/
theorem C93_seventeen_partial {m : Mgr} {l : List Hex} (hc : Consistent m l) (hd : m.gatewayDiscv = true) {id : Id} (hp : Proper id)
    (hin : Ids.toStr id ∈ l) (hne : l.head? ≠ some (Ids.toStr id)) (hlen : l.length = 17) :
    ∃ m' lo hi, getGatewayCIDRange m id = .ok (m', .val (lo, hi)) ∧ (∀ g : Id, Proper g → Ids.toStr g ∈ l → g ≠ id → InArc lo hi g) ∧
      ∀ p q : Id, Proper p → Proper q → Ids.toStr p ∈ l → Ids.toStr q ∈ l → p ≠ id → q ≠ id → p ≠ q →
        (∀ g : Id, Proper g → Ids.toStr g ∈ l → g ≠ id → g ≠ p → cw (position p) (position id) < cw (position g) (position id)) →
        (∀ g : Id, Proper g → Ids.toStr g ∈ l → g ≠ id → g ≠ p → g ≠ q → cw (position q) (position id) < cw (position g) (position id)) →
        (InArc lo hi id ↔ cw (position p) (position id) ≤ cw (position id) (position q)) := by
  obtain ⟨m', lo, hi, near, k1, k2, k3, k4, k5, k6, k7, R, M, L, hLR, hinS, hofS, e0, hperm, hsort, -, hends⟩ := arc_core hc hd hp hin hne (by omega)
  have hnd := Ring.isRing_nodup hc.ring
  have hM : M = [] := by
    have e1 := hperm.length_eq
    rw [List.length_erase_of_mem hin, hlen] at e1
    simp only [List.length_append] at e1 hLR
    exact List.length_eq_zero_iff.1 (by omega)
  subst hM
  have inj : ∀ {a b : Id}, Proper a → Proper b → Ids.toStr a = Ids.toStr b → a = b := by
    intro a b ha hb he
    have e1 := Ids.fromHex_toStr ha
    rw [he, Ids.fromHex_toStr hb] at e1
    injection e1 with e1
    exact e1.symm
  have hin2 : ∀ g : Id, Proper g → Ids.toStr g ∈ l → g ≠ id → Ids.toStr g ∈ R ++ [] ++ L := by
    intro g hg hgl hgi
    exact hperm.mem_iff.2 (hnd.mem_erase_iff.2 ⟨fun he => hgi (inj hg hp he), hgl⟩)
  refine ⟨m', lo, hi, k1, fun g hg hgl hgi => ?_, ?_⟩
  · have := hin2 g hg hgl hgi
    have h : Ids.toStr g ∈ L ++ R := by
      simp only [List.append_nil, List.mem_append] at this ⊢
      exact this.symm
    obtain ⟨g', hg', he⟩ := hofS _ h
    rw [← inj (k2.gateways g' hg').1 hg he]
    exact k6 g' hg'
  · intro p q hpp hqp hpl hql hpi hqi hpq hp1 hq1
    obtain ⟨hR, hiff⟩ := hends hlen
    have hid : keyOf (Ids.toStr id) = position id := OfferMgr.keyOf_toStr hp
    have hpos : ∀ {g : Id}, Proper g → keyOf (Ids.toStr g) = position g := fun hg => OfferMgr.keyOf_toStr hg
    have hlt : ∀ {g : Id}, Proper g → position g < 2 ^ 256 := by
      intro g hg
      rw [← hpos hg]
      exact Ring.keyOf_lt (canonical_valid ⟨g, hg, rfl⟩)
    have hback : ∀ {g : Id}, Proper g → g ≠ id → cw (position g) (position id) = 2 ^ 256 - cw (position id) (position g) := by
      intro g hg hgi
      refine Ring.cw_back (hlt hp) (hlt hg) ?_
      intro he
      exact hgi (inj hg hp (canonical_inj ⟨g, hg, rfl⟩ ⟨id, hp, rfl⟩ (by rw [hpos hg, hid]; exact he.symm)))
    have hcwlt : ∀ g : Id, cw (position id) (position g) < 2 ^ 256 := fun g => Ring.cw_lt _ _
    -- the last two of the ring, seen clockwise from the gateway
    generalize hS : R ++ [] ++ L = S at *
    have hmemS : ∀ x ∈ S, ∃ g : Id, Proper g ∧ Ids.toStr g = x ∧ x ∈ l ∧ g ≠ id := by
      intro x hx
      have h := hnd.mem_erase_iff.1 (hperm.mem_iff.1 hx)
      obtain ⟨g, hg, rfl⟩ := hc.canonical x h.2
      exact ⟨g, hg, rfl, h.2, fun he => h.1 (by rw [he])⟩
    have hSlen : S.length = 16 := by rw [hperm.length_eq, List.length_erase_of_mem hin, hlen]
    obtain ⟨S1, b, rfl⟩ : ∃ S1 b, S = S1 ++ [b] := ⟨S.dropLast, S.getLast (by intro e; rw [e] at hSlen; simp at hSlen), (List.dropLast_concat_getLast _).symm⟩
    obtain ⟨S2, a, rfl⟩ : ∃ S2 a, S1 = S2 ++ [a] :=
      ⟨S1.dropLast, S1.getLast (by intro e; rw [e] at hSlen; simp at hSlen), (List.dropLast_concat_getLast _).symm⟩
    obtain ⟨gb, hgb, rfl, hgbl, hgbi⟩ := hmemS b (by simp)
    obtain ⟨ga, hga, rfl, hgal, hgai⟩ := hmemS a (by simp)
    rw [List.pairwise_append, List.pairwise_append] at hsort
    have hab : cw (position id) (position ga) < cw (position id) (position gb) := by
      have := hsort.2.2 (Ids.toStr ga) (by simp) (Ids.toStr gb) (by simp)
      rwa [hid, hpos hga, hpos hgb] at this
    have hpb : p = gb := by
      apply Classical.byContradiction
      intro h
      have h1 := hp1 gb hgb hgbl hgbi (fun e => h e.symm)
      rw [hback hpp hpi, hback hgb hgbi] at h1
      have hm := hin2 p hpp hpl hpi
      rw [List.mem_append] at hm
      rcases hm with hm | hm
      · have := hsort.2.2 _ hm (Ids.toStr gb) (by simp)
        rw [hid, hpos hpp, hpos hgb] at this
        have := hcwlt p
        have := hcwlt gb
        omega
      · exact h (inj hpp hgb (by simpa using hm))
    subst hpb
    have hqa : q = ga := by
      apply Classical.byContradiction
      intro h
      have hgap : ga ≠ p := by
        intro e
        rw [e] at hab
        omega
      have h1 := hq1 ga hga hgal hgai hgap (fun e => h e.symm)
      rw [hback hqp hqi, hback hga hgai] at h1
      have hm := hin2 q hqp hql hqi
      rw [List.mem_append, List.mem_append] at hm
      rcases hm with (hm | hm) | hm
      · have := hsort.1.2.2 _ hm (Ids.toStr ga) (by simp)
        rw [hid, hpos hqp, hpos hga] at this
        have := hcwlt q
        have := hcwlt ga
        omega
      · exact h (inj hqp hga (by simpa using hm))
      · exact hpq (inj hpp hqp (by simpa [eq_comm] using hm))
    subst hqa
    have := hiff S2 (Ids.toStr q) (Ids.toStr p) (by simp)
    rw [hid, hpos hqp, hpos hpp] at this
    rw [e0]
    constructor
    · rintro ⟨hL, -⟩
      have : ¬ cw (position id) (position q) < cw (position p) (position id) := fun h => hL (this.2 h)
      omega
    · intro h
      exact ⟨fun hL => by have := this.1 hL; omega, hR⟩

/-- A gateway with this identifier. -/
def recOf (n : Nat) : Record := { exRec '1' "AU" with nodeID := Ids.toStr (exId (UInt8.ofNat n)) }

/-- A started manager that heard of the gateways `0101…`, `0202…`, … up to the `k`-th. -/
def exNet (k : Nat) : Except Fault Mgr := hearAll (fresh true true) [.gateways (some (((List.range k).map (fun n => recOf (n + 1))).map some))]

/-- The identifiers of these gateways. -/
def exNetIds (k : Nat) : List Id := (List.range k).map (fun n => exId (UInt8.ofNat (n + 1)))

/-- 18 gateways. -/
def exLarge : Except Fault Mgr := exNet 18

/-- The identifiers of these gateways. -/
def exLargeIds : List Id := exNetIds 18

theorem exNet_consistent (k : Nat) (e : addAll ((gatewayReports [.gateways (some (((List.range k).map (fun n => recOf (n + 1))).map some))]).map (·.nodeID)) [] =
    (exNetIds k).map Ids.toStr) : ∃ m, exNet k = .ok m ∧ m.gatewayDiscv = true ∧ Consistent m ((exNetIds k).map Ids.toStr) := by
  have hn : NoNulls [.gateways (some (((List.range k).map (fun n => recOf (n + 1))).map some))] := by
    intro e he a ha l hl
    simp only [List.mem_cons, List.not_mem_nil, or_false] at he
    subst he
    rcases ha with ha | ha <;> cases ha
    cases hl
    simp
  have hcan : ∀ r ∈ gatewayReports [.gateways (some (((List.range k).map (fun n => recOf (n + 1))).map some))], Canonical r.nodeID := by
    intro r hr
    simp only [gatewayReports, records, Option.getD_some, List.append_nil, List.filterMap_map, List.mem_filterMap] at hr
    obtain ⟨n, _, h⟩ := hr
    cases h
    exact ⟨exId (UInt8.ofNat (n + 1)), rfl, rfl⟩
  obtain ⟨m, h1, hs, hg, _, ht, _, h2, _⟩ := hearAll_from _ (m := fresh true true) rfl rfl rfl hn (fresh_ring _ _) (fresh_covered _ _)
  obtain ⟨m', l, h1', hc, _⟩ := C43_ring_agrees_partial _ hn hcan
  rw [h1] at h1'
  cases h1'
  have hl : l = (exNetIds k).map Ids.toStr := by
    rw [e] at h2
    have d1 := Ring.dump_eq h2
    have d2 := Ring.dump_eq hc.ring
    rw [d1] at d2
    exact (Except.ok.inj d2).symm
  exact ⟨m, h1, hg, hl ▸ hc⟩

theorem exLarge_consistent : ∃ m, exLarge = .ok m ∧ m.gatewayDiscv = true ∧ Consistent m (exLargeIds.map Ids.toStr) :=
  exNet_consistent 18 (by decide +kernel)

/-- The hypotheses of `C93_seventeen_partial` are met by the ninth of 17 gateways; going counter-clockwise one meets the eighth and the seventh. -/
example : ∃ m, Consistent m ((exNetIds 17).map Ids.toStr) ∧ m.gatewayDiscv = true ∧ Proper (exId 9) ∧
    Ids.toStr (exId 9) ∈ (exNetIds 17).map Ids.toStr ∧ ((exNetIds 17).map Ids.toStr).head? ≠ some (Ids.toStr (exId 9)) ∧
    ((exNetIds 17).map Ids.toStr).length = 17 ∧
    (∀ g ∈ exNetIds 17, g ≠ exId 9 → g ≠ exId 8 → cw (position (exId 8)) (position (exId 9)) < cw (position g) (position (exId 9))) ∧
    (∀ g ∈ exNetIds 17, g ≠ exId 9 → g ≠ exId 8 → g ≠ exId 7 → cw (position (exId 7)) (position (exId 9)) < cw (position g) (position (exId 9))) ∧
    cw (position (exId 8)) (position (exId 9)) ≤ cw (position (exId 9)) (position (exId 7)) := by
  obtain ⟨m, _, h2, h3⟩ := exNet_consistent 17 (by decide +kernel)
  exact ⟨m, h3, h2, rfl, by decide +kernel, by decide +kernel, by decide +kernel, by decide +kernel, by decide +kernel, by decide +kernel⟩

/-- The hypotheses of `C93_arc_partial` are met by the ninth of 18 gateways. -/
example : ∃ m, Consistent m (exLargeIds.map Ids.toStr) ∧ m.gatewayDiscv = true ∧ Proper (exId 9) ∧
    Ids.toStr (exId 9) ∈ exLargeIds.map Ids.toStr ∧ (exLargeIds.map Ids.toStr).head? ≠ some (Ids.toStr (exId 9)) ∧
    18 ≤ (exLargeIds.map Ids.toStr).length := by
  obtain ⟨m, _, h2, h3⟩ := exLarge_consistent
  exact ⟨m, h3, h2, rfl, by decide +kernel, by decide +kernel, by decide +kernel⟩

/-- From the answer of the ring to the range. -/
theorem range_of_ring {m : Mgr} {l : List Hex} (hc : Consistent m l) (hd : m.gatewayDiscv = true) {id : Id} (hp : Proper id) {r3 : Ring.Ring}
    {a b : Hex} {mid : List Hex} (hget : Ring.getClosest m.ring (Ids.toStr id) 16 (Ids.toStr id) = .ok (r3, .val (a :: (mid ++ [b]))))
    (hsub : ∀ x ∈ a :: (mid ++ [b]), x ∈ l) :
    ∃ m' lo hi, getGatewayCIDRange m id = .ok (m', .val (lo, hi)) ∧ Proper lo ∧ Proper hi ∧ Ids.toStr lo = a ∧ Ids.toStr hi = b := by
  obtain ⟨rs, h6, h7, h8⟩ := resolve_eq hc hsub
  obtain ⟨lo, hlo, ha⟩ := hc.canonical a (hsub a (by simp))
  obtain ⟨hi, hhi, hb⟩ := hc.canonical b (hsub b (by simp))
  refine ⟨{ m with ring := r3 }, lo, hi, ?_, hlo, hhi, ha.symm, hb.symm⟩
  have hnear : getGatewaysNear m id 16 (some id) = .ok ({ m with ring := r3 }, .val rs) := by
    simp only [getGatewaysNear, hd, hget, h6, bind, Except.bind, pure, Except.pure, Bool.true_eq_false, false_and, if_false,
      show ¬ ((16 : Int) > 16) by decide]
  have hhead : (rs.map (·.nodeID)).head? = some a := by rw [h7]; rfl
  have hlast : (rs.map (·.nodeID)).getLast? = some b := by
    rw [h7]
    simp [List.getLast?_cons, List.getLast?_append]
  rw [List.head?_map] at hhead
  rw [List.getLast?_map] at hlast
  obtain ⟨ra, hra, hra'⟩ := Option.map_eq_some_iff.1 hhead
  obtain ⟨rb, hrb, hrb'⟩ := Option.map_eq_some_iff.1 hlast
  have hl2 : ¬ rs.length < 2 := by
    have : rs.length = (a :: (mid ++ [b])).length := by rw [← h7]; simp
    rw [this]; simp
  simp only [getGatewayCIDRange, Ids.fromHex_toStr hp, hnear, bind, Except.bind, pure, Except.pure, hra, hrb, if_neg hl2, hra', hrb', ha, hb,
    Ids.fromHex_toStr hlo, Ids.fromHex_toStr hhi]

/-- **C93 (refuted)** for the smallest gateway, in every network of 17 gateways or more: its range goes from the next gateway to the sixteenth after it, wherever the nearest
ones are, and never contains the gateway itself. -/
theorem C93_smallest_refuted {m : Mgr} {l : List Hex} (hc : Consistent m l) (hd : m.gatewayDiscv = true) {id : Id} (hp : Proper id)
    (hmin : l.head? = some (Ids.toStr id)) (hlen : 17 ≤ l.length) :
    ∃ m' lo hi, getGatewayCIDRange m id = .ok (m', .val (lo, hi)) ∧ l[1]? = some (Ids.toStr lo) ∧ l[16]? = some (Ids.toStr hi) ∧ ¬ InArc lo hi id := by
  obtain ⟨y, l, rfl⟩ : ∃ y l', l = y :: l' := by
    cases l with
    | nil => simp at hlen
    | cons y l => exact ⟨y, l, rfl⟩
  simp only [List.head?_cons, Option.some.injEq] at hmin
  subst hmin
  simp only [List.length_cons] at hlen
  obtain ⟨r3, hget⟩ := Ring.getClosest_smallest (n := 15) hc.ring (by omega) (by omega)
  obtain ⟨a, l, rfl⟩ : ∃ a l', l = a :: l' := by
    cases l with
    | nil => simp at hlen
    | cons y l => exact ⟨y, l, rfl⟩
  simp only [List.length_cons] at hlen
  have hb : l[14]? = some (l[14]'(by omega)) := List.getElem?_eq_getElem (by omega)
  have htake : (a :: l).take (15 + 1) = a :: (l.take 14 ++ [l[14]'(by omega)]) := by
    rw [List.take_succ_cons, List.take_add_one, hb]
    rfl
  rw [htake] at hget
  have hsub : ∀ x ∈ a :: (l.take 14 ++ [l[14]'(by omega)]), x ∈ Ids.toStr id :: a :: l := by
    intro x hx
    rw [← htake] at hx
    exact List.mem_cons_of_mem _ (List.mem_of_mem_take hx)
  obtain ⟨m', lo, hi, h1, hlo, hhi, ha, hb'⟩ := range_of_ring hc hd hp hget hsub
  refine ⟨m', lo, hi, h1, by simp [ha], by simp [hb', hb], ?_⟩
  have hs := Ring.isRing_sorted hc.ring
  have h2 := (List.pairwise_cons.1 hs).1
  have h3 := (List.pairwise_cons.1 (List.pairwise_cons.1 hs).2).1
  have k1 := h2 a (by simp)
  have k2 := h3 (l[14]'(by omega)) (List.getElem_mem _)
  rw [← ha, OfferMgr.keyOf_toStr hp, OfferMgr.keyOf_toStr hlo] at k1
  rw [← ha, ← hb', OfferMgr.keyOf_toStr hhi, OfferMgr.keyOf_toStr hlo] at k2
  have hhilt : position hi < 2 ^ 256 := by
    rw [← OfferMgr.keyOf_toStr hhi]
    exact Ring.keyOf_lt (canonical_valid ⟨hi, hhi, rfl⟩)
  unfold InArc
  rw [Ring.cw_up k2 hhilt]
  have : cw (position lo) (position id) = position id + 2 ^ 256 - position lo := by
    unfold cw
    rw [Nat.mod_eq_of_lt (by omega)]
  omega

/-- The hypotheses are met by the first of 18 gateways. -/
example : ∃ m, Consistent m (exLargeIds.map Ids.toStr) ∧ m.gatewayDiscv = true ∧ Proper (exId 1) ∧
    (exLargeIds.map Ids.toStr).head? = some (Ids.toStr (exId 1)) ∧ 17 ≤ (exLargeIds.map Ids.toStr).length := by
  obtain ⟨m, _, h2, h3⟩ := exLarge_consistent
  exact ⟨m, h3, h2, rfl, by decide +kernel, by decide +kernel⟩

/-- **C93 (partial)** for the smallest gateway, in networks of 3 to 16 gateways: its range goes from the gateway after the next one around to itself, and so leaves out exactly
the next gateway. -/
theorem C93_smallest_few_partial {m : Mgr} {l : List Hex} (hc : Consistent m l) (hd : m.gatewayDiscv = true) {id : Id} (hp : Proper id)
    (hmin : l.head? = some (Ids.toStr id)) (hlen : 3 ≤ l.length) (hle : l.length ≤ 16) :
    ∃ m' lo, getGatewayCIDRange m id = .ok (m', .val (lo, id)) ∧ l[2]? = some (Ids.toStr lo) ∧
      ∀ g : Id, Proper g → Ids.toStr g ∈ l → (InArc lo id g ↔ l[1]? ≠ some (Ids.toStr g)) := by
  match l, hc, hmin, hlen, hle with
  | y :: a :: b :: l, hc, hmin, hlen, hle =>
    simp only [List.head?_cons, Option.some.injEq] at hmin
    subst hmin
    obtain ⟨r3, hget⟩ := Ring.getClosest_smallest_more (num := 16) hc.ring (by simp) (by simp at hle ⊢; omega)
    rw [List.cons_append] at hget
    have hsub : ∀ x ∈ b :: (l ++ [Ids.toStr id]), x ∈ Ids.toStr id :: a :: b :: l := by
      intro x hx
      simp only [List.mem_cons, List.mem_append, List.not_mem_nil, or_false] at hx ⊢
      grind
    obtain ⟨m', lo, hi, h1, hlo, hhi, hb, hi'⟩ := range_of_ring hc hd hp hget hsub
    have hid : hi = id := by
      have e1 := Ids.fromHex_toStr hhi
      rw [hi', Ids.fromHex_toStr hp] at e1
      injection e1 with e1
      exact e1.symm
    subst hid
    refine ⟨m', lo, h1, by simp [hb], ?_⟩
    intro g hg hgl
    have hs := Ring.isRing_sorted hc.ring
    have s1 := List.pairwise_cons.1 hs
    have s2 := List.pairwise_cons.1 s1.2
    have s3 := List.pairwise_cons.1 s2.2
    have k1 := s1.1 a (by simp)
    have k2 := s2.1 b (by simp)
    have hlt : ∀ {g : Id}, Proper g → position g < 2 ^ 256 := by
      intro g hg
      rw [← OfferMgr.keyOf_toStr hg]
      exact Ring.keyOf_lt (canonical_valid ⟨g, hg, rfl⟩)
    have hlolt := hlt hlo
    have hglt := hlt hg
    rw [OfferMgr.keyOf_toStr hp] at k1
    rw [← hb, OfferMgr.keyOf_toStr hlo] at k2
    have e : cw (position lo) (position hi) = position hi + 2 ^ 256 - position lo := by
      unfold cw
      rw [Nat.mod_eq_of_lt (by omega)]
    unfold InArc
    rw [e]
    simp only [List.getElem?_cons_succ, List.getElem?_cons_zero, ne_eq, Option.some.injEq]
    simp only [List.mem_cons] at hgl
    rcases hgl with hgl | hgl | hgl
    · have : position g = position hi := by rw [← OfferMgr.keyOf_toStr hg, hgl, OfferMgr.keyOf_toStr hp]
      rw [this, e]
      simp only [Nat.le_refl, true_iff]
      intro h
      rw [h, hgl, OfferMgr.keyOf_toStr hp] at k1
      omega
    · have : keyOf a = position g := by rw [← hgl, OfferMgr.keyOf_toStr hg]
      have e2 : cw (position lo) (position g) = position g + 2 ^ 256 - position lo := by
        unfold cw
        rw [Nat.mod_eq_of_lt (by omega)]
      rw [e2]
      simp only [hgl, not_true_eq_false, iff_false]
      omega
    · have h5 : position lo ≤ position g := by
        rcases hgl with hgl | hgl
        · rw [← OfferMgr.keyOf_toStr hlo, ← OfferMgr.keyOf_toStr hg, hb, hgl]
          exact Nat.le_refl _
        · have := s3.1 _ hgl
          rw [← hb, OfferMgr.keyOf_toStr hlo, OfferMgr.keyOf_toStr hg] at this
          omega
      have h6 : ¬ a = Ids.toStr g := by
        rintro rfl
        rw [OfferMgr.keyOf_toStr hg] at k2
        omega
      have e2 : cw (position lo) (position g) = position g - position lo := by
        unfold cw
        rw [show position g + 2 ^ 256 - position lo = (position g - position lo) + 2 ^ 256 by omega, Nat.add_mod_right, Nat.mod_eq_of_lt (by omega)]
      rw [e2]
      simp only [h6, not_false_eq_true, iff_true]
      omega

/-- The hypotheses are met by the first of 5 gateways. -/
example : ∃ m, Consistent m ((exNetIds 5).map Ids.toStr) ∧ m.gatewayDiscv = true ∧ Proper (exId 1) ∧
    ((exNetIds 5).map Ids.toStr).head? = some (Ids.toStr (exId 1)) ∧ ((exNetIds 5).map Ids.toStr).length = 5 := by
  obtain ⟨m, _, h2, h3⟩ := exNet_consistent 5 (by decide +kernel)
  exact ⟨m, h3, h2, rfl, by decide +kernel, by decide +kernel⟩

/-- **C93 (refuted)** in the smallest networks: with one or two gateways, and with three except for the smallest of them, there is no range at all. -/
theorem C93_none_refuted {m : Mgr} {l : List Hex} (hc : Consistent m l) (hd : m.gatewayDiscv = true) {id : Id} (hp : Proper id)
    (hin : Ids.toStr id ∈ l) (hle : l.length ≤ 3) (hne : l.length = 3 → l.head? ≠ some (Ids.toStr id)) :
    ∃ m', getGatewayCIDRange m id = .ok (m', .err) := by
  have hcan : Canonical (Ids.toStr id) := ⟨id, hp, rfl⟩
  have hv := canonical_valid hcan
  have hnd := Ring.isRing_nodup hc.ring
  have hyne : Ids.toStr id ≠ [] := by
    intro h
    rw [h] at hv
    exact absurd hv (by decide)
  have hlen1 : (l.erase (Ids.toStr id)).length = l.length - 1 := List.length_erase_of_mem hin
  have hget : ∃ r3 res, Ring.getClosest m.ring (Ids.toStr id) 16 (Ids.toStr id) = .ok (r3, .val res) ∧ res.length < 2 ∧ ∀ x ∈ res, x ∈ l := by
    by_cases h1 : l.length = 1
    · have hs := Ring.isRing_size hc.ring
      refine ⟨m.ring, [], ?_, by simp, by simp⟩
      simp only [Ring.getClosest, hv, hs, h1, bind, Except.bind, pure, Except.pure, Bool.true_eq_false, and_false, or_self, if_false]
      rw [if_pos (.inr (.inr ⟨hyne, trivial⟩))]
    · have h0 : l.length ≠ 0 := fun h => by simp [List.length_eq_zero_iff.1 h] at hin
      have hclean : Ring.CleanRemove l (Ids.toStr id) := ⟨fun h => by omega, fun h => hne (by omega)⟩
      obtain ⟨r1, hrem, hr1⟩ := Ring.remove_clean hc.ring hv hclean
      obtain ⟨y, rest, hl⟩ : ∃ y rest, l.erase (Ids.toStr id) = y :: rest := by
        cases h : l.erase (Ids.toStr id) with
        | nil => rw [h] at hlen1; simp at hlen1; omega
        | cons y rest => exact ⟨y, rest, rfl⟩
      have hy : y ≠ Ids.toStr id := (hnd.mem_erase_iff.1 (show y ∈ l.erase (Ids.toStr id) by rw [hl]; simp)).1
      have hbody : ∀ q, IsRing q (l.erase (Ids.toStr id)) → Ring.remove m.ring (Ids.toStr id) = .ok q →
          Ring.closestBody q (Ids.toStr id) 16 = .ok (r1, rest) := by
        intro q hq h2
        rw [hrem] at h2
        cases h2
        rw [hl] at hr1
        have := Ring.closestBody_more (x := Ids.toStr id) (num := 16) hr1 (by rw [hl] at hlen1; simp at hlen1 ⊢; omega)
        rw [if_neg hy] at this
        exact this
      obtain ⟨r3, hget, _⟩ := (Ring.getClosest_exclude hc.ring hv hv (by omega) hclean (by decide) hbody).1 hr1
      refine ⟨r3, rest, hget, ?_, fun x hx => ?_⟩
      · rw [hl] at hlen1
        simp at hlen1
        omega
      · exact (hnd.mem_erase_iff.1 (show x ∈ l.erase (Ids.toStr id) by rw [hl]; exact List.mem_cons_of_mem _ hx)).2
  obtain ⟨r3, res, hget, hlt, hsub⟩ := hget
  obtain ⟨rs, h6, h7, _⟩ := resolve_eq hc hsub
  have hnear : getGatewaysNear m id 16 (some id) = .ok ({ m with ring := r3 }, .val rs) := by
    simp only [getGatewaysNear, hd, hget, h6, bind, Except.bind, pure, Except.pure, Bool.true_eq_false, false_and, if_false,
      show ¬ ((16 : Int) > 16) by decide]
  have hl2 : rs.length < 2 := by
    have : rs.length = res.length := by rw [← h7]; simp
    omega
  refine ⟨{ m with ring := r3 }, ?_⟩
  simp only [getGatewayCIDRange, Ids.fromHex_toStr hp, hnear, bind, Except.bind, pure, Except.pure, if_pos hl2]
  split <;> rfl

/-- The hypotheses are met by the second of 3 gateways. -/
example : ∃ m, Consistent m ((exNetIds 3).map Ids.toStr) ∧ m.gatewayDiscv = true ∧ Proper (exId 2) ∧
    Ids.toStr (exId 2) ∈ (exNetIds 3).map Ids.toStr ∧ ((exNetIds 3).map Ids.toStr).head? ≠ some (Ids.toStr (exId 2)) := by
  obtain ⟨m, _, h2, h3⟩ := exNet_consistent 3 (by decide +kernel)
  exact ⟨m, h3, h2, rfl, by decide +kernel, by decide +kernel⟩

/-- **C93 (refuted)**, also in a large network: of the 18 gateways `0101…`, …, `1212…` the last one gets a range that does not contain it. -/
theorem C93_cluster_refuted : ∃ m m' lo hi, exLarge = .ok m ∧ getGatewayCIDRange m (exId 18) = .ok (m', .val (lo, hi)) ∧
    ¬ InArc lo hi (exId 18) := by
  obtain ⟨m, h1, h2, h3⟩ := exLarge_consistent
  obtain ⟨m', lo, hi, near, h4, h5, _, _, _, _, _, h6⟩ := C93_arc_partial h3 h2 (id := exId 18) rfl (by decide +kernel) (by decide +kernel)
    (by decide +kernel)
  refine ⟨m, m', lo, hi, h1, h4, fun h => ?_⟩
  obtain ⟨⟨a, ha, haa⟩, _⟩ := h6.1 h
  obtain ⟨ap, al, _⟩ := h5.gateways a ha
  obtain ⟨g, hg, hga⟩ := List.mem_map.1 al
  have hgp : Proper g := by
    obtain ⟨n, _, rfl⟩ := List.mem_map.1 hg
    rfl
  have e := Ids.fromHex_toStr hgp
  rw [hga, Ids.fromHex_toStr ap] at e
  injection e with e
  subst e
  have : ∀ g ∈ exLargeIds, ¬ cw (position (exId 18)) (position g) < cw (position g) (position (exId 18)) := by decide +kernel
  exact this a hg haa

end FcRetrieval.RegMgr
