import Verif.Lemmas.RingShared
import Verif.Spec.RingShared
import Verif.Props.OfferMgr
/-!
# C177: offers published and listed at the same time

The in-memory offer manager of a provider keeps the CIDs of its DHT offers in a ring that no lock protects.  Requests to publish and requests to list are served
at the same time.
-/
set_option linter.unusedSimpArgs false
namespace FcRetrieval.RingShared
open FcRetrieval.Ids (Id Proper position)
open FcRetrieval.Merkle (Hash)
open FcRetrieval.Offer (CidOffer terms InRange)
open FcRetrieval.OfferMgr
open FcRetrieval.Ring (Ring Hex Fault IsRing IsRingAt keyOf validateInput SameSpelling arc addSorted allocNode deref insert_at addSorted_of_mem addSorted_mem mem_addSorted_self sameSpelling_add dropTemp_eq ensure_eq getWithinRange_eq)

/-- C177: the two parts, one after the other, are `Insert`. -/
theorem C177_insert_parts (r : Ring) (hex : Hex) : (insertLook r hex).map (fun e => insertLink e.1 e.2) = Ring.insert r hex := by
  unfold insertLook Ring.insert Ring.insertNode
  split
  · rfl
  · simp only [bind, Except.bind, pure, Except.pure]
    generalize (if (Ring.allocNode r hex).size = 0 then { Ring.allocNode r hex with head := some r.cap, size := (Ring.allocNode r hex).size + 1 } else Ring.allocNode r hex) = q
    cases Ring.deref q.head with
    | error f => rfl
    | ok hd =>
      simp only
      split
      · rfl
      · split
        · rfl
        · cases Ring.insertLoop q.heap (q.heap hd).val (q.heap r.cap).key (q.cap + 1) hd (q.heap hd).next with
          | error f => rfl
          | ok pl => cases pl <;> rfl

/-- C177: the three parts, one after the other, are `GetWithinRange`. -/
theorem C177_list_parts (r : Ring) (x y : Hex) :
    (do
      let (r1, l?) ← listBegin r x y
      match l? with
      | none => return (r1, Ring.Ret.err)
      | some l =>
        let res ← listWalk r1 x y l (r1.cap + 1)
        let r2 ← listEnd r1 x y l
        return (r2, Ring.Ret.val res)) = Ring.getWithinRange r x y := by
  unfold listBegin Ring.getWithinRange listWalk listEnd
  simp only [bind, Except.bind, pure, Except.pure]
  by_cases hv : validateInput x = false ∨ validateInput y = false
  · simp only [if_pos hv]
  · simp only [if_neg hv]
    cases Ring.ensure r x with
    | error f => rfl
    | ok e1 =>
      obtain ⟨r1, f1, s⟩ := e1
      cases s with
      | none => rfl
      | some s =>
        simp only
        cases Ring.ensure r1 y with
        | error f => rfl
        | ok e2 =>
          obtain ⟨r2, f2, t⟩ := e2
          cases t with
          | none =>
            simp only
            cases Ring.dropTemp r2 x f1 <;> rfl
          | some t =>
            simp only
            cases Ring.rangeLoop r2.heap (r2.heap t).val (r2.cap + 1) (r2.heap s).next with
            | error f => rfl
            | ok mid =>
              simp only
              cases Ring.dropTemp r2 y f2 with
              | error f => rfl
              | ok r3 =>
                simp only

theorem offered_steps {H512 : Hash} {strict : Bool} : ∀ (h : List (Clock × Op)) {s s' : Shelf} {outs : List Out}, Steps H512 strict s h outs s' →
    ∀ c, c ∈ s'.offered ↔ c ∈ s.offered ∨ c ∈ dhtCids h
  | [], s, s', outs, hs, c => by
    obtain ⟨_, rfl⟩ := hs
    simp [dhtCids]
  | (t, op) :: h, s, s', outs, ⟨out, rest, s1, _, h1, h2⟩, c => by
    have ih := offered_steps h h2 c
    have hcons : dhtCids ((t, op) :: h) = dhtCids [(t, op)] ++ dhtCids h := by simp [dhtCids]
    rw [ih, hcons, List.mem_append, ← or_assoc]
    refine or_congr ?_ Iff.rfl
    cases op with
    | addDht o =>
      simp only [Step] at h1
      split at h1
      · rename_i c' hc
        rw [h1.2]
        simp only [dhtCids, List.flatMap_cons, List.flatMap_nil, List.append_nil, hc, List.mem_cons, List.not_mem_nil, or_false]
        exact or_comm
      · rename_i hc
        rw [h1.2]
        have : dhtCids [(t, Op.addDht o)] = [] := by
          simp only [dhtCids, List.flatMap_cons, List.flatMap_nil, List.append_nil]
        simp [this]
    | addGroup o =>
      simp only [Step] at h1
      split at h1 <;> simp [h1.2, dhtCids]
    | getGroup _ => obtain ⟨_, _, _, e⟩ := h1; simp [e, dhtCids]
    | getDht _ => obtain ⟨_, _, _, e⟩ := h1; simp [e, dhtCids]
    | getOffers _ => obtain ⟨_, _, _, _, _, e⟩ := h1; simp [e, dhtCids]
    | range _ _ _ => obtain ⟨_, _, _, _, _, _, _, e, _⟩ := h1; simp [e, dhtCids]
    | byDigest _ => simp [h1.1, dhtCids]

/-- The nodes of the ring below and above the gap. -/
theorem split_gap {r : Ring} {offered : List Id} (hr : RingInv r offered) {c c' : Id} (hc : Proper c) (hc' : Proper c')
    (hgap : ∀ d ∈ offered, (position d < position c ∧ position d < position c') ∨ (position c < position d ∧ position c' < position d)) :
    ∃ los his l, IsRingAt r (los ++ his) l ∧ (∀ x, x ∈ l ↔ x ∈ offered.map Ids.toStr) ∧
      (∀ n ∈ los, (r.heap n).key < keyOf (Ids.toStr c) ∧ (r.heap n).key < keyOf (Ids.toStr c')) ∧
      (∀ n ∈ his, keyOf (Ids.toStr c) < (r.heap n).key ∧ keyOf (Ids.toStr c') < (r.heap n).key) := by
  obtain ⟨hp, l, ⟨as, hl⟩, hm⟩ := hr
  obtain ⟨los, his, rfl, h1, h2⟩ := Ring.split_sorted as (fun a => (r.heap a).key) (keyOf (Ids.toStr c)) hl.sorted_nodes
  have hd : ∀ n ∈ los ++ his, ((r.heap n).key < keyOf (Ids.toStr c) ∧ (r.heap n).key < keyOf (Ids.toStr c')) ∨
      (keyOf (Ids.toStr c) < (r.heap n).key ∧ keyOf (Ids.toStr c') < (r.heap n).key) := by
    intro n hn
    have hv : (r.heap n).val ∈ l := by rw [← hl.vals]; exact List.mem_map.mpr ⟨n, hn, rfl⟩
    obtain ⟨d, hdm, hde⟩ := List.mem_map.mp ((hm _).1 hv)
    rw [hl.keys n hn, ← hde, keyOf_toStr (hp d hdm), keyOf_toStr hc, keyOf_toStr hc']
    exact hgap d hdm
  refine ⟨los, his, l, hl, hm, ?_, ?_⟩
  · intro n hn
    rcases hd n (List.mem_append_left _ hn) with h | h
    · exact h
    · have := h1 n hn; omega
  · intro n hn
    rcases hd n (List.mem_append_right _ hn) with h | h
    · have := h2 n hn; omega
    · exact h

/-- The nodes of the ring below, between and above two CIDs. -/
theorem split_two {r : Ring} {offered : List Id} (hr : RingInv r offered) {a b : Id} (ha : Proper a) (hb : Proper b) (hao : a ∉ offered) (hbo : b ∉ offered)
    (_hab : position a < position b) :
    ∃ los mids his l, IsRingAt r (los ++ mids ++ his) l ∧ (∀ x, x ∈ l ↔ x ∈ offered.map Ids.toStr) ∧
      (∀ n ∈ los, (r.heap n).key < keyOf (Ids.toStr a)) ∧
      (∀ n ∈ mids, keyOf (Ids.toStr a) < (r.heap n).key ∧ (r.heap n).key < keyOf (Ids.toStr b)) ∧
      (∀ n ∈ his, keyOf (Ids.toStr b) < (r.heap n).key) := by
  obtain ⟨hp, l, ⟨as, hl⟩, hm⟩ := hr
  obtain ⟨los, rest, rfl, h1, h2⟩ := Ring.split_sorted as (fun a => (r.heap a).key) (keyOf (Ids.toStr a)) hl.sorted_nodes
  have hs2 := (List.pairwise_append.mp hl.sorted_nodes).2.1
  obtain ⟨mids, his, rfl, h3, h4⟩ := Ring.split_sorted rest (fun a => (r.heap a).key) (keyOf (Ids.toStr b)) hs2
  have hd : ∀ n ∈ los ++ (mids ++ his), (r.heap n).key ≠ keyOf (Ids.toStr a) ∧ (r.heap n).key ≠ keyOf (Ids.toStr b) := by
    intro n hn
    have hv : (r.heap n).val ∈ l := by rw [← hl.vals]; exact List.mem_map.mpr ⟨n, hn, rfl⟩
    obtain ⟨d, hdm, hde⟩ := List.mem_map.mp ((hm _).1 hv)
    rw [hl.keys n hn, ← hde, keyOf_toStr (hp d hdm), keyOf_toStr ha, keyOf_toStr hb]
    refine ⟨fun e => hao ?_, fun e => hbo ?_⟩
    · rw [← position_inj (hp d hdm) ha e]; exact hdm
    · rw [← position_inj (hp d hdm) hb e]; exact hdm
  refine ⟨los, mids, his, l, by rw [List.append_assoc]; exact hl, hm, h1, ?_, ?_⟩
  · intro n hn
    have g1 := h2 n (by simp [hn])
    have g2 := h3 n hn
    have g3 := hd n (by simp [hn])
    exact ⟨by omega, g2⟩
  · intro n hn
    have g1 := h4 n hn
    have g3 := hd n (by simp [hn])
    omega

theorem steps_length {H512 : Hash} {strict : Bool} : ∀ {h : List (Clock × Op)} {s s' : Shelf} {outs : List Out}, Steps H512 strict s h outs s' → outs.length = h.length
  | [], _, _, _, hs => by rw [hs.1]; rfl
  | _ :: h, _, _, _, ⟨_, _, _, rfl, _, h2⟩ => by simp [steps_length h2]

/-- An offered CID is at a node. -/
theorem node_of {r : Ring} {as : List Nat} {l : List Hex} {offered : List Id} (hl : IsRingAt r as l) (hm : ∀ x, x ∈ l ↔ x ∈ offered.map Ids.toStr)
    {d : Id} (hd : d ∈ offered) (hp : Proper d) : ∃ n ∈ as, (r.heap n).key = position d := by
  have : Ids.toStr d ∈ l := (hm _).2 (List.mem_map.mpr ⟨d, hd, rfl⟩)
  rw [← hl.vals] at this
  obtain ⟨n, hn, hv⟩ := List.mem_map.mp this
  exact ⟨n, hn, by rw [hl.keys n hn, hv, keyOf_toStr hp]⟩

/-- An offer goes into the storage. -/
theorem add_one {H512 : Hash} {A : List CidOffer} {m : Mgr CidOffer} {s : Shelf} (hA : NoCollision H512 A) (hs : SInv H512 A m s) {t : Clock} {o : CidOffer}
    (hoA : o ∈ A) (hoR : InRange o) (hne : o.cids ≠ []) (he : expired o t = false) :
    ∃ d1, OfferMgr.add H512 id t m.dht o = .ok (d1, true) ∧
      ∀ ring, SInv H512 A { m with dht := d1, ring := ring } { s with dht := (shelve t s.dht o).1 } := by
  have hok : (shelve t s.dht o).2 = true := by
    unfold shelve
    split
    · rfl
    · rw [if_neg (by simp [he])]
  obtain ⟨d1, e1, e2, _⟩ := add_rep (t := t) hs.dht hoR hne (noCollision_sub hA (by
    intro x hx
    rcases List.mem_cons.1 hx with rfl | hx
    · exact hoA
    · exact hs.subD x hx))
  rw [hok] at e1
  exact ⟨d1, e1, fun ring => ⟨e2, hs.group, shelve_sub (t := t) hs.subD hoA, hs.subG⟩⟩

/-- Both offers go into the storage. -/
theorem add_two {H512 : Hash} {A : List CidOffer} {m : Mgr CidOffer} {s : Shelf} (hA : NoCollision H512 A) (hs : SInv H512 A m s) {t : Clock} {o o' : CidOffer}
    (hoA : o ∈ A) (hoA' : o' ∈ A) (hoR : InRange o) (hoR' : InRange o') (hne : o.cids ≠ []) (hne' : o'.cids ≠ []) (he : expired o t = false) (he' : expired o' t = false) :
    ∃ d1 d2, OfferMgr.add H512 id t m.dht o = .ok (d1, true) ∧ OfferMgr.add H512 id t d1 o' = .ok (d2, true) ∧
      ∀ ring, SInv H512 A { m with dht := d2, ring := ring } { s with dht := (shelve t (shelve t s.dht o).1 o').1 } := by
  have hok : ∀ (acc : List CidOffer) (o : CidOffer), expired o t = false → (shelve t acc o).2 = true := by
    intro acc o h
    unfold shelve
    split
    · rfl
    · rw [if_neg (by simp [h])]
  obtain ⟨d1, e1, e2, _⟩ := add_rep (t := t) hs.dht hoR hne (noCollision_sub hA (by
    intro x hx
    rcases List.mem_cons.1 hx with rfl | hx
    · exact hoA
    · exact hs.subD x hx))
  have hsub := shelve_sub (t := t) hs.subD hoA
  obtain ⟨d2, f1, f2, _⟩ := add_rep (t := t) e2 hoR' hne' (noCollision_sub hA (by
    intro x hx
    rcases List.mem_cons.1 hx with rfl | hx
    · exact hoA'
    · exact hsub x hx))
  rw [hok _ _ he] at e1
  rw [hok _ _ he'] at f1
  exact ⟨d1, d2, e1, f1, fun ring => ⟨f2, hs.group, shelve_sub hsub hoA', hs.subG⟩⟩

theorem shelved (t : Clock) (acc : List CidOffer) (o : CidOffer) (he : expired o t = false) : ∃ w ∈ (shelve t acc o).1, terms w = terms o := by
  unfold shelve
  split
  · rename_i h
    obtain ⟨w, hw, hd⟩ := List.any_eq_true.1 h
    exact ⟨w, hw, by simpa using hd⟩
  · rw [if_neg (by simp [he])]
    exact ⟨o, by simp, rfl⟩

theorem shelve_keeps {t : Clock} {acc : List CidOffer} {o w : CidOffer} (h : w ∈ acc) : w ∈ (shelve t acc o).1 := by
  unfold shelve
  split
  · exact h
  · split
    · exact h
    · simp [h]

/-- **C177 (refuted).** After any history, two requests publish offers for two contents with no offered content between them (and some below and some above both).
If both have searched the ring of contents before either has written to it, both are told that their offer is stored, and the first one is found when asked for
by its content.  But no listing, of whatever range and
limit, has the first offer in it: its content is not in the ring. -/
theorem C177_lost_refuted {H512 : Hash} {order : DigestMap CidOffer → DigestMap CidOffer} {orderE : Storage CidOffer → Storage CidOffer}
    (hord : ∀ dm, (order dm).Perm dm) (hordE : ∀ st, (orderE st).Perm st) (h : List (Clock × Op)) (t t' : Clock) (o o' : CidOffer) (c c' : Id)
    (hc : o.cids = [c]) (hc' : o'.cids = [c']) (hh : SaneHistory H512 (h ++ [(t, .addDht o), (t, .addDht o')])) (hs : AllSafe [] h)
    (he : expired o t = false) (he' : expired o' t = false) (hne : c ≠ c')
    (hgap : ∀ d ∈ dhtCids h, (position d < position c ∧ position d < position c') ∨ (position c < position d ∧ position c' < position d))
    (hlow : ∃ d ∈ dhtCids h, position d < position c) (hhigh : ∃ d ∈ dhtCids h, position c < position d) :
    ∃ m outs m1, execAll H512 order orderE newMgr h = .ok (m, outs) ∧ addTwo H512 false t m o o' c c' = .ok (m1, true, true) ∧
      (∃ m2 l, exec H512 order orderE t m1 (.getDht c) = .ok (m2, .offers l true) ∧ ∃ p ∈ l, terms p = terms o) ∧
      ∀ x y max, Proper x → Proper y → x ≠ y →
        ∃ m2 l found, exec H512 order orderE t' m1 (.range x y max) = .ok (m2, .offers l found) ∧ o ∉ l := by
  have hsub : ∀ e ∈ h, ∀ p ∈ added e.2, p ∈ allAdded (h ++ [(t, .addDht o), (t, .addDht o')]) ∧ InRange p := by
    intro e hem p hp
    have : p ∈ allAdded (h ++ [(t, .addDht o), (t, .addDht o')]) := List.mem_flatMap.2 ⟨e, by simp [hem], hp⟩
    exact ⟨this, hh.1 p this⟩
  have hoA : o ∈ allAdded (h ++ [(t, .addDht o), (t, .addDht o')]) := List.mem_flatMap.2 ⟨(t, .addDht o), by simp, by simp [added]⟩
  have hoA' : o' ∈ allAdded (h ++ [(t, .addDht o), (t, .addDht o')]) := List.mem_flatMap.2 ⟨(t, .addDht o'), by simp, by simp [added]⟩
  have hpc : Proper c := (hh.1 o hoA).2.1 c (by rw [hc]; simp)
  have hpc' : Proper c' := (hh.1 o' hoA').2.1 c' (by rw [hc']; simp)
  obtain ⟨m, outs, s, e1, e2, e3, e4⟩ := steps_strict (order := order) (orderE := orderE) hord hordE hh.2.2 h (sinv_new _) ringInv_new hsub
    (fun e hem => hh.2.1 e (by simp [hem])) hs
  have hoff : ∀ d, d ∈ s.offered ↔ d ∈ dhtCids h := by
    intro d
    rw [offered_steps h e2 d]
    simp [noOffers]
  have hprop := e4.1
  obtain ⟨los, his, l, hl, hm, hlo, hhi⟩ := split_gap e4 hpc hpc' (fun d hd => hgap d ((hoff d).1 hd))
  have hlo0 : los ≠ [] := by
    rintro rfl
    obtain ⟨d, hd, hlt⟩ := hlow
    obtain ⟨n, hn, hk⟩ := node_of hl hm ((hoff d).2 hd) (hprop d ((hoff d).2 hd))
    have := hhi n (by simpa using hn)
    rw [hk, keyOf_toStr hpc] at this
    omega
  have hhi0 : his ≠ [] := by
    rintro rfl
    obtain ⟨d, hd, hlt⟩ := hhigh
    obtain ⟨n, hn, hk⟩ := node_of hl hm ((hoff d).2 hd) (hprop d ((hoff d).2 hd))
    have := hlo n (by simpa using hn)
    rw [hk, keyOf_toStr hpc] at this
    omega
  obtain ⟨r1, p, r2, q, f1, f2, f3, f4⟩ := lost_ring hl hlo0 hhi0 (validate_toStr hpc) (validate_toStr hpc') hlo hhi
  obtain ⟨d1, d2, g1, g2, g3⟩ := add_two hh.2.2 e3 hoA hoA' (hh.1 o hoA) (hh.1 o' hoA') (by rw [hc]; simp) (by rw [hc']; simp) he he'
  refine ⟨m, outs, { m with dht := d2, ring := insertLink (insertLink r2 p) q }, e1, ?_, ?_, ?_⟩
  · simp only [addTwo, f1, f2, g1, g2, bind, Except.bind, pure, Except.pure, Bool.false_eq_true, if_false]
  · obtain ⟨m2, out, s2, n1, n2, _⟩ := sim_offRing (order := order) (orderE := orderE) (t := t) hord hordE hh.2.2 (g3 (insertLink (insertLink r2 p) q))
      (op := .getDht c) (by simp [added]) hpc rfl
    obtain ⟨l1, n3, rfl, _⟩ := n2
    obtain ⟨w, hw1, hw2⟩ := shelved t s.dht o he
    have hw3 : w ∈ (shelve t (shelve t s.dht o).1 o').1 := shelve_keeps hw1
    have hw4 : w ∈ l1 := by
      rw [n3.mem_iff]
      refine List.mem_filter.2 ⟨hw3, ?_⟩
      have : w.cids = o.cids := by
        unfold terms at hw2
        simp only [Prod.mk.injEq] at hw2
        exact hw2.2.1
      rw [expired_terms hw2, he, this, hc]
      simp
    refine ⟨m2, l1, ?_, w, hw4, hw2⟩
    rw [n1]
    cases l1 with
    | nil => simp at hw4
    | cons _ _ => rfl
  · intro x y max hx hy hxy
    -- the ring holds `c'` but not `c`
    have hring : RingInv { insertLink (insertLink r2 p) q with size := l.length + 1 } (c' :: s.offered) := by
      refine ⟨?_, _, f3, ?_⟩
      · intro d hd
        rcases List.mem_cons.1 hd with rfl | hd
        · exact hpc'
        · exact hprop d hd
      · intro w
        have hw := hm w
        rw [map_vals_split hl] at hw
        simp only [List.map_cons, List.mem_cons, List.mem_append] at hw ⊢
        rw [← hw]
        grind
    obtain ⟨r', es, k1, k2, k3, _⟩ := ringInv_range hring hx hy hxy
    have hlen : 3 ≤ (los.map (fun n => (m.ring.heap n).val) ++ Ids.toStr c' :: his.map (fun n => (m.ring.heap n).val)).length := by
      have h1 := List.length_pos_iff.mpr hlo0
      have h2 := List.length_pos_iff.mpr hhi0
      simp
      omega
    have hmem : ∀ w, w ∈ los.map (fun n => (m.ring.heap n).val) ++ Ids.toStr c' :: his.map (fun n => (m.ring.heap n).val) ↔ w ∈ (c' :: s.offered).map Ids.toStr := by
      intro w
      have hw := hm w
      rw [map_vals_split hl] at hw
      simp only [List.map_cons, List.mem_cons, List.mem_append] at hw ⊢
      rw [← hw]
      grind
    have hb := range_counted f3 hlen (validate_toStr hx) (ringInv_spelling hring.1 hmem hx) (Ids.toStr y)
    have hbump : bump { insertLink (insertLink r2 p) q with size := l.length + 1 } = insertLink (insertLink r2 p) q := by
      unfold bump
      rw [show (({ insertLink (insertLink r2 p) q with size := l.length + 1 } : Ring)).size + 1 = (insertLink (insertLink r2 p) q).size from f4.symm]
    rw [hbump, k1] at hb
    obtain ⟨m2, es', full, visited, found, n1, n2, n3, n4, n5, n6⟩ := sim_range (order := order) (orderE := orderE) (t := t') (max := max) hord (g3 (insertLink (insertLink r2 p) q)) (a := x) (b := y) hb
    obtain ⟨rfl, _⟩ := n6 es k2 rfl
    refine ⟨m2, _, found, n1, ?_⟩
    intro hin
    obtain ⟨d, hd1, hd2⟩ := (listings_mem n2 o).1 (List.mem_of_mem_take hin)
    have hd3 := (List.mem_filter.1 hd2).2
    rw [hc] at hd3
    simp only [List.mem_cons, List.not_mem_nil, or_false, Bool.and_eq_true, decide_eq_true_eq] at hd3
    have hd4 := ((k3.1 d).1 hd1).1
    rw [hd3.1] at hd4
    rcases List.mem_cons.1 hd4 with h1 | h1
    · exact hne h1
    · rcases hgap c ((hoff c).1 h1) with h2 | h2 <;> omega

/-- **C177 (refuted).** After any history in which contents `d` and `d'` were offered, two requests list the same range, whose ends were not offered and lie above `d`.
If the second begins while the first has its ends in the ring, and walks after the first has taken them out, the first is answered as if it were alone, and the
second walks round the ring for ever: however many steps it is given, it has not ended. -/
theorem C177_endless_refuted {H512 : Hash} {order : DigestMap CidOffer → DigestMap CidOffer} {orderE : Storage CidOffer → Storage CidOffer}
    (hord : ∀ dm, (order dm).Perm dm) (hordE : ∀ st, (orderE st).Perm st) (h : List (Clock × Op)) (hh : SaneHistory H512 h) (hs : AllSafe [] h)
    (x y d d' : Id) (hx : Proper x) (hy : Proper y) (hxy : x ≠ y) (hxo : x ∉ dhtCids h) (hyo : y ∉ dhtCids h) (hd : d ∈ dhtCids h) (hd' : d' ∈ dhtCids h)
    (hdd : d ≠ d') (hdx : position d < position x) (hdy : position d < position y) :
    ∃ m outs r' res l2, execAll H512 order orderE newMgr h = .ok (m, outs) ∧ listTwo m.ring (Ids.toStr x) (Ids.toStr y) = .ok (r', res, l2) ∧
      (∃ r0, Ring.getWithinRange m.ring (Ids.toStr x) (Ids.toStr y) = .ok (r0, .val res)) ∧
      ∀ fuel, listWalk r' (Ids.toStr x) (Ids.toStr y) l2 fuel = .error .diverge := by
  obtain ⟨m, outs, s, e1, e2, e3, e4⟩ := steps_strict (order := order) (orderE := orderE) hord hordE hh.2.2 h (sinv_new _) ringInv_new
    (fun e hem p hp => ⟨List.mem_flatMap.2 ⟨e, hem, hp⟩, hh.1 p (List.mem_flatMap.2 ⟨e, hem, hp⟩)⟩) hh.2.1 hs
  have hoff : ∀ d, d ∈ s.offered ↔ d ∈ dhtCids h := by
    intro d
    rw [offered_steps h e2 d]
    simp [noOffers]
  obtain ⟨hp, l, hl, hm⟩ := e4
  have hnot : ∀ z, Proper z → z ∉ dhtCids h → ∀ w ∈ l, keyOf w ≠ keyOf (Ids.toStr z) := by
    intro z hz hzo w hw he
    obtain ⟨v, hv, rfl⟩ := List.mem_map.mp ((hm w).1 hw)
    rw [keyOf_toStr (hp v hv), keyOf_toStr hz] at he
    rw [position_inj (hp v hv) hz he] at hv
    exact hzo ((hoff z).1 hv)
  have hpd := hp d ((hoff d).2 hd)
  have hpd' := hp d' ((hoff d').2 hd')
  have hmd : Ids.toStr d ∈ l := (hm _).2 (List.mem_map.mpr ⟨d, (hoff d).2 hd, rfl⟩)
  have hmd' : Ids.toStr d' ∈ l := (hm _).2 (List.mem_map.mpr ⟨d', (hoff d').2 hd', rfl⟩)
  have h2 : 2 ≤ l.length := by
    match l, hmd, hmd' with
    | [w], h1, h2 =>
      exfalso
      simp only [List.mem_cons, List.not_mem_nil, or_false] at h1 h2
      apply hdd
      apply position_inj hpd hpd'
      rw [← keyOf_toStr hpd, ← keyOf_toStr hpd', h1, h2]
    | _ :: _ :: _, _, _ => simp
  have := endless_ring hl h2 (validate_toStr hx) (validate_toStr hy) (hnot x hx hxo) (hnot y hy hyo)
    (by rw [keyOf_toStr hx, keyOf_toStr hy]; exact fun e => hxy (position_inj hx hy e)) hmd
    (by rw [keyOf_toStr hpd, keyOf_toStr hx]; exact hdx) (by rw [keyOf_toStr hpd, keyOf_toStr hy]; exact hdy)
  obtain ⟨r', res, l2, h3, h4, h5⟩ := this
  exact ⟨m, outs, r', res, l2, e1, h3, h4, h5⟩

/-- A search that finds its content in the ring has nothing to write. -/
theorem look_stored {r : Ring} {as : List Nat} {l : List Hex} {x : Hex} (hr : IsRingAt r as l) (hx : validateInput x = true) (hm : x ∈ l) :
    ∃ r', insertLook r x = .ok (r', none) ∧ IsRing r' l := by
  obtain ⟨r', as', h1, h2, _⟩ := insert_at hr hx
  rw [addSorted_of_mem hr.sorted ⟨x, hm, rfl⟩] at h2
  have h3 := C177_insert_parts r x
  rw [h1] at h3
  have hpos : r.size ≠ 0 := by
    rw [hr.size]
    have := hr.length
    have := List.length_pos_of_mem hm
    omega
  cases h4 : insertLook r x with
  | error f => rw [h4] at h3; cases h3
  | ok e =>
    obtain ⟨r2, p⟩ := e
    rw [h4] at h3
    simp only [Except.map, Except.ok.injEq] at h3
    have h5 : r2.size = r.size := by
      unfold insertLook at h4
      rw [if_neg (by simp [hx])] at h4
      simp only [bind, Except.bind, pure, Except.pure] at h4
      have ha : (allocNode r x).size = r.size := rfl
      rw [if_neg (by rw [ha]; exact hpos)] at h4
      cases hd : deref (allocNode r x).head with
      | error f => rw [hd] at h4; cases h4
      | ok head =>
        rw [hd] at h4
        simp only at h4
        split at h4
        · cases h4; exact ha
        · split at h4
          · cases h4; exact ha
          · split at h4
            · cases h4
            · split at h4 <;> (cases h4; exact ha)
    cases p with
    | none => exact ⟨r2, rfl, as', by rw [← h3] at h2; exact h2⟩
    | some p =>
      exfalso
      have g1 := h2.size
      have g2 := h2.length
      have g3 := hr.size
      have g4 := hr.length
      rw [← h3] at g1
      simp only [insertLink] at g1
      omega

/-- What is left of the ring when a content is published that a listing has put there for a while. -/
theorem bound_ring {r : Ring} {l : List Hex} {x y z : Hex} (hr : IsRing r l) (hx : validateInput x = true) (hy : validateInput y = true)
    (hxl : ∀ w ∈ l, keyOf w ≠ keyOf x) (hspy : SameSpelling l y) (hxy : keyOf x ≠ keyOf y) (hz : z ∈ l) (hzx : keyOf z < keyOf x) (hzy : keyOf z < keyOf y) :
    ∃ r1 lst res r2 r3, listBegin r x y = .ok (r1, some lst) ∧ listWalk r1 x y lst (r1.cap + 1) = .ok res ∧ insertLook r1 x = .ok (r2, none) ∧
      listEnd r2 x y lst = .ok r3 ∧ IsRing r3 l ∧ ∃ r0, Ring.getWithinRange r x y = .ok (r0, .val res) := by
  have hr0 := hr
  obtain ⟨as, hr⟩ := hr
  have hspx : SameSpelling l x := fun w hw e => absurd e (hxl w hw)
  have hnx : x ∉ l := fun h => hxl x h rfl
  obtain ⟨r1, as1, s, e1, hr1, hs1, hv1, _⟩ := ensure_eq hr hx hspx
  have hspy1 := sameSpelling_add hspy hxy
  obtain ⟨r2, as2, t, e2, hr2, ht2, hv2, _⟩ := ensure_eq hr1 hy hspy1
  have hb : listBegin r x y = .ok (r2, some ⟨s, decide (x ∈ l), t, decide (y ∈ addSorted x l)⟩) := by
    unfold listBegin
    rw [if_neg (by simp [hx, hy])]
    simp only [e1, e2, bind, Except.bind, pure, Except.pure]
  obtain ⟨r0, hw, _⟩ := getWithinRange_eq hr0 hx hy hspx hspy hxy
  generalize harc : arc (keyOf x) (keyOf y) l = res at hw
  have hwalk : listWalk r2 x y ⟨s, decide (x ∈ l), t, decide (y ∈ addSorted x l)⟩ (r2.cap + 1) = .ok res := by
    have hp := C177_list_parts r x y
    have hw' := hw
    unfold Ring.getWithinRange at hw
    rw [if_neg (by simp [hx, hy])] at hw
    simp only [e1, e2, bind, Except.bind, pure, Except.pure] at hw
    unfold listWalk
    simp only [bind, Except.bind, pure, Except.pure]
    cases hl : Ring.rangeLoop r2.heap (r2.heap t).val (r2.cap + 1) (r2.heap s).next with
    | error f => rw [hl] at hw; cases hw
    | ok mid =>
      rw [hl] at hw
      simp only at hw
      cases h3 : Ring.dropTemp r2 y (decide (y ∈ addSorted x l)) with
      | error f => rw [h3] at hw; cases hw
      | ok r3 =>
        rw [h3] at hw
        simp only at hw
        cases h4 : Ring.dropTemp r3 x (decide (x ∈ l)) with
        | error f => rw [h4] at hw; cases hw
        | ok r4 =>
          rw [h4] at hw
          simp only [Except.ok.injEq, Prod.mk.injEq, Ring.Ret.val.injEq] at hw
          simp only [hw.2]
  obtain ⟨r3, hlook, hr3⟩ := look_stored hr2 hx (addSorted_mem (mem_addSorted_self hspx))
  obtain ⟨r4, hd4, hl4⟩ := dropTemp_eq hr1.sorted hspy1 hr3
  have hr4 : IsRing r4 (addSorted x l) := by
    rcases hl4 with h | h
    · exact h.1
    · have := h.1.2 z (addSorted_mem hz)
      omega
  obtain ⟨r5, hd5, hl5⟩ := dropTemp_eq hr.sorted hspx hr4
  have hr5 : IsRing r5 l := by
    rcases hl5 with h | h
    · exact h.1
    · have := h.1.2 z hz
      omega
  refine ⟨r2, _, res, r3, r5, hb, hwalk, hlook, ?_, hr5, r0, hw⟩
  unfold listEnd
  simp only [bind, Except.bind, hd4]
  exact hd5

/-- **C177 (refuted).** After any history in which some content `d` was offered, a request lists a range that begins at `c`, a content not offered yet, and another
request publishes an offer of `c`.  If the publication searches the ring when the listing is about to end, the listing is answered as if it were alone and the
publication is answered that all is well.  The offer is then found by its content, but no listing holds it, whatever its range and however large its limit: the listing
has taken the publication's place in the ring away with its own.  Another gateway chooses the range, so it chooses the offer. -/
theorem C177_bound_refuted {H512 : Hash} {order : DigestMap CidOffer → DigestMap CidOffer} {orderE : Storage CidOffer → Storage CidOffer}
    (hord : ∀ dm, (order dm).Perm dm) (hordE : ∀ st, (orderE st).Perm st) (h : List (Clock × Op)) (t t' : Clock) (o : CidOffer) (c d e : Id)
    (hc : o.cids = [c]) (hh : SaneHistory H512 (h ++ [(t, .addDht o)])) (hs : AllSafe [] h) (he : expired o t = false) (hco : c ∉ dhtCids h)
    (hpe : Proper e) (hce : c ≠ e) (hd : d ∈ dhtCids h) (hdc : position d < position c) (hde : position d < position e) :
    ∃ m outs m1 res, execAll H512 order orderE newMgr h = .ok (m, outs) ∧ addWhileListing H512 t m o c (Ids.toStr c) (Ids.toStr e) = .ok (m1, true, res) ∧
      (∃ r0, Ring.getWithinRange m.ring (Ids.toStr c) (Ids.toStr e) = .ok (r0, .val res)) ∧
      (∃ m2 l, exec H512 order orderE t m1 (.getDht c) = .ok (m2, .offers l true) ∧ ∃ p ∈ l, terms p = terms o) ∧
      ∀ x y max, Proper x → Proper y → x ≠ y →
        ∃ m2 l found, exec H512 order orderE t' m1 (.range x y max) = .ok (m2, .offers l found) ∧ o ∉ l := by
  have hsub : ∀ e ∈ h, ∀ p ∈ added e.2, p ∈ allAdded (h ++ [(t, .addDht o)]) ∧ InRange p := by
    intro e hem p hp
    have : p ∈ allAdded (h ++ [(t, .addDht o)]) := List.mem_flatMap.2 ⟨e, by simp [hem], hp⟩
    exact ⟨this, hh.1 p this⟩
  have hoA : o ∈ allAdded (h ++ [(t, .addDht o)]) := List.mem_flatMap.2 ⟨(t, .addDht o), by simp, by simp [added]⟩
  have hpc : Proper c := (hh.1 o hoA).2.1 c (by rw [hc]; simp)
  obtain ⟨m, outs, s, e1, e2, e3, e4⟩ := steps_strict (order := order) (orderE := orderE) hord hordE hh.2.2 h (sinv_new _) ringInv_new hsub
    (fun e hem => hh.2.1 e (by simp [hem])) hs
  have hoff : ∀ d, d ∈ s.offered ↔ d ∈ dhtCids h := by
    intro d
    rw [offered_steps h e2 d]
    simp [noOffers]
  obtain ⟨hp, l, hl, hm⟩ := e4
  have hnot : ∀ w ∈ l, keyOf w ≠ keyOf (Ids.toStr c) := by
    intro w hw he
    obtain ⟨v, hv, rfl⟩ := List.mem_map.mp ((hm w).1 hw)
    rw [keyOf_toStr (hp v hv), keyOf_toStr hpc] at he
    rw [position_inj (hp v hv) hpc he] at hv
    exact hco ((hoff c).1 hv)
  have hpd := hp d ((hoff d).2 hd)
  have hmd : Ids.toStr d ∈ l := (hm _).2 (List.mem_map.mpr ⟨d, (hoff d).2 hd, rfl⟩)
  obtain ⟨r1, lst, res, r2, r3, f1, f2, f3, f4, f5, f6⟩ := bound_ring hl (validate_toStr hpc) (validate_toStr hpe) hnot (ringInv_spelling hp hm hpe)
    (by rw [keyOf_toStr hpc, keyOf_toStr hpe]; exact fun e => hce (position_inj hpc hpe e)) hmd
    (by rw [keyOf_toStr hpd, keyOf_toStr hpc]; exact hdc) (by rw [keyOf_toStr hpd, keyOf_toStr hpe]; exact hde)
  obtain ⟨d1, g1, g2⟩ := add_one hh.2.2 e3 hoA (hh.1 o hoA) (by rw [hc]; simp) he
  refine ⟨m, outs, { m with dht := d1, ring := r3 }, res, e1, ?_, f6, ?_, ?_⟩
  · simp only [addWhileListing, f1, f2, f3, f4, g1, bind, Except.bind, pure, Except.pure, insertLink]
  · obtain ⟨m2, out, s2, n1, n2, _⟩ := sim_offRing (order := order) (orderE := orderE) (t := t) hord hordE hh.2.2 (g2 r3)
      (op := .getDht c) (by simp [added]) hpc rfl
    obtain ⟨l1, n3, rfl, _⟩ := n2
    obtain ⟨w, hw1, hw2⟩ := shelved t s.dht o he
    have hw4 : w ∈ l1 := by
      rw [n3.mem_iff]
      refine List.mem_filter.2 ⟨hw1, ?_⟩
      have : w.cids = o.cids := by
        unfold terms at hw2
        simp only [Prod.mk.injEq] at hw2
        exact hw2.2.1
      rw [expired_terms hw2, he, this, hc]
      simp
    refine ⟨m2, l1, ?_, w, hw4, hw2⟩
    rw [n1]
    cases l1 with
    | nil => simp at hw4
    | cons _ _ => rfl
  · intro x y max hx hy hxy
    obtain ⟨r', es, k1, k2, k3, _⟩ := ringInv_range (r := r3) (offered := s.offered) ⟨hp, l, f5, hm⟩ hx hy hxy
    obtain ⟨m2, es', full, visited, found, n1, n2, n3, n4, n5, n6⟩ := sim_range (order := order) (orderE := orderE) (t := t') (max := max) hord (g2 r3) (a := x) (b := y) k1
    obtain ⟨rfl, _⟩ := n6 es k2 rfl
    refine ⟨m2, _, found, n1, ?_⟩
    intro hin
    obtain ⟨d, hd1, hd2⟩ := (listings_mem n2 o).1 (List.mem_of_mem_take hin)
    have hd3 := (List.mem_filter.1 hd2).2
    rw [hc] at hd3
    simp only [List.mem_cons, List.not_mem_nil, or_false, Bool.and_eq_true, decide_eq_true_eq] at hd3
    have hd4 := ((k3.1 d).1 hd1).1
    rw [hd3.1] at hd4
    exact hco ((hoff c).1 hd4)

/-- **C177 (partial).** Two requests that publish at the same time, as in `C177_lost_refuted`, but with an offered content between their contents: both offers are kept.
Every later listing answers as if the two had been served one after the other.  What is missing: contents with none between them, or at an end of the order
(`C177_lost_refuted`), and requests that list meanwhile (`C177_endless_refuted`). -/
theorem C177_apart_partial {H512 : Hash} {order : DigestMap CidOffer → DigestMap CidOffer} {orderE : Storage CidOffer → Storage CidOffer}
    (hord : ∀ dm, (order dm).Perm dm) (hordE : ∀ st, (orderE st).Perm st) (h : List (Clock × Op)) (t : Clock) (o o' : CidOffer) (c c' : Id) (swap : Bool)
    (hc : o.cids = [c]) (hc' : o'.cids = [c']) (hh : SaneHistory H512 (h ++ [(t, .addDht o), (t, .addDht o')])) (hs : AllSafe [] h)
    (he : expired o t = false) (he' : expired o' t = false) (hco : c ∉ dhtCids h) (hco' : c' ∉ dhtCids h)
    (hmid : ∃ d ∈ dhtCids h, (position c < position d ∧ position d < position c') ∨ (position c' < position d ∧ position d < position c))
    (hlow : ∃ d ∈ dhtCids h, position d < position c ∧ position d < position c') (hhigh : ∃ d ∈ dhtCids h, position c < position d ∧ position c' < position d) :
    ∃ m outs m1 s1, execAll H512 order orderE newMgr h = .ok (m, outs) ∧ addTwo H512 swap t m o o' c c' = .ok (m1, true, true) ∧
      Steps H512 true noOffers (h ++ [(t, .addDht o), (t, .addDht o')]) (outs ++ [.done true, .done true]) s1 ∧
      ∀ x y max t', Proper x → Proper y → x ≠ y →
        ∃ m2 out s2, exec H512 order orderE t' m1 (.range x y max) = .ok (m2, out) ∧ Step H512 true t' s1 (.range x y max) out s2 := by
  have hsub : ∀ e ∈ h, ∀ p ∈ added e.2, p ∈ allAdded (h ++ [(t, .addDht o), (t, .addDht o')]) ∧ InRange p := by
    intro e hem p hp
    have : p ∈ allAdded (h ++ [(t, .addDht o), (t, .addDht o')]) := List.mem_flatMap.2 ⟨e, by simp [hem], hp⟩
    exact ⟨this, hh.1 p this⟩
  have hoA : o ∈ allAdded (h ++ [(t, .addDht o), (t, .addDht o')]) := List.mem_flatMap.2 ⟨(t, .addDht o), by simp, by simp [added]⟩
  have hoA' : o' ∈ allAdded (h ++ [(t, .addDht o), (t, .addDht o')]) := List.mem_flatMap.2 ⟨(t, .addDht o'), by simp, by simp [added]⟩
  have hpc : Proper c := (hh.1 o hoA).2.1 c (by rw [hc]; simp)
  have hpc' : Proper c' := (hh.1 o' hoA').2.1 c' (by rw [hc']; simp)
  obtain ⟨m, outs, s, e1, e2, e3, e4⟩ := steps_strict (order := order) (orderE := orderE) hord hordE hh.2.2 h (sinv_new _) ringInv_new hsub
    (fun e hem => hh.2.1 e (by simp [hem])) hs
  have hoff : ∀ d, d ∈ s.offered ↔ d ∈ dhtCids h := by
    intro d
    rw [offered_steps h e2 d]
    simp [noOffers]
  obtain ⟨d1, d2, g1, g2, g3⟩ := add_two hh.2.2 e3 hoA hoA' (hh.1 o hoA) (hh.1 o' hoA') (by rw [hc]; simp) (by rw [hc']; simp) he he'
  -- both are in the ring
  obtain ⟨r1, p, r2, q, f1, f2, f3⟩ : ∃ r1 p r2 q, insertLook m.ring (Ids.toStr c) = .ok (r1, p) ∧ insertLook r1 (Ids.toStr c') = .ok (r2, q) ∧
      RingInv (if swap then insertLink (insertLink r2 q) p else insertLink (insertLink r2 p) q) (c' :: c :: s.offered) := by
    obtain ⟨dm, hdm, hmid⟩ := hmid
    obtain ⟨dl, hdl, hlow⟩ := hlow
    obtain ⟨dh, hdh, hhigh⟩ := hhigh
    have key : ∀ (a b : Id), Proper a → Proper b → a ∉ s.offered → b ∉ s.offered → position a < position dm → position dm < position b →
        position dl < position a → position b < position dh →
        ∃ los mids his l, IsRingAt m.ring (los ++ mids ++ his) l ∧ (∀ x, x ∈ l ↔ x ∈ s.offered.map Ids.toStr) ∧ los ≠ [] ∧ mids ≠ [] ∧ his ≠ [] ∧
          (∀ n ∈ los, (m.ring.heap n).key < keyOf (Ids.toStr a)) ∧
          (∀ n ∈ mids, keyOf (Ids.toStr a) < (m.ring.heap n).key ∧ (m.ring.heap n).key < keyOf (Ids.toStr b)) ∧
          (∀ n ∈ his, keyOf (Ids.toStr b) < (m.ring.heap n).key) := by
      intro a b ha hb hao hbo h1 h2 h3 h4
      obtain ⟨los, mids, his, l, k1, k2, k3, k4, k5⟩ := split_two e4 ha hb hao hbo (by omega)
      have hne : ∀ d ∈ s.offered, ∃ n ∈ los ++ mids ++ his, (m.ring.heap n).key = position d := fun d hd => node_of k1 k2 hd (e4.1 d hd)
      rw [keyOf_toStr ha] at k3
      rw [keyOf_toStr ha, keyOf_toStr hb] at k4
      rw [keyOf_toStr hb] at k5
      refine ⟨los, mids, his, l, k1, k2, ?_, ?_, ?_, by rw [keyOf_toStr ha]; exact k3, by rw [keyOf_toStr ha, keyOf_toStr hb]; exact k4, by rw [keyOf_toStr hb]; exact k5⟩
      · rintro rfl
        obtain ⟨n, hn, hk⟩ := hne dl ((hoff dl).2 hdl)
        simp only [List.nil_append, List.mem_append] at hn
        rcases hn with hn | hn
        · have := k4 n hn; omega
        · have := k5 n hn; omega
      · rintro rfl
        obtain ⟨n, hn, hk⟩ := hne dm ((hoff dm).2 hdm)
        simp only [List.append_nil, List.mem_append] at hn
        rcases hn with hn | hn
        · have := k3 n hn; omega
        · have := k5 n hn; omega
      · rintro rfl
        obtain ⟨n, hn, hk⟩ := hne dh ((hoff dh).2 hdh)
        simp only [List.append_nil, List.mem_append] at hn
        rcases hn with hn | hn
        · have := k3 n hn; omega
        · have := k4 n hn; omega
    have hprop : ∀ d ∈ c' :: c :: s.offered, Proper d := by
      intro d hd
      simp only [List.mem_cons] at hd
      rcases hd with rfl | rfl | hd
      · exact hpc'
      · exact hpc
      · exact e4.1 d hd
    have hco1 : c ∉ s.offered := fun h1 => hco ((hoff c).1 h1)
    have hco1' : c' ∉ s.offered := fun h1 => hco' ((hoff c').1 h1)
    rcases hmid with hmid | hmid
    · obtain ⟨los, mids, his, l, k1, k2, n1, n2, n3, k3, k4, k5⟩ := key c c' hpc hpc' hco1 hco1' hmid.1 hmid.2 hlow.1 hhigh.2
      obtain ⟨⟨r1, p, r2, q, f1, f2, f3⟩, _⟩ := apart_ring k1 n1 n2 n3 (validate_toStr hpc) (validate_toStr hpc') k3 k4 k5
      refine ⟨r1, p, r2, q, f1, f2, hprop, _, f3 _ (by cases swap <;> simp), ?_⟩
      intro w
      have hw := k2 w
      rw [map_vals_split k1, List.map_append] at hw
      simp only [List.map_cons, List.mem_cons, List.mem_append] at hw ⊢
      rw [← hw]
      grind
    · obtain ⟨los, mids, his, l, k1, k2, n1, n2, n3, k3, k4, k5⟩ := key c' c hpc' hpc hco1' hco1 hmid.1 hmid.2 hlow.2 hhigh.1
      obtain ⟨_, ⟨r1, p, r2, q, f1, f2, f3⟩⟩ := apart_ring k1 n1 n2 n3 (validate_toStr hpc') (validate_toStr hpc) k3 k4 k5
      refine ⟨r1, p, r2, q, f1, f2, hprop, _, f3 _ (by cases swap <;> simp), ?_⟩
      intro w
      have hw := k2 w
      rw [map_vals_split k1, List.map_append] at hw
      simp only [List.map_cons, List.mem_cons, List.mem_append] at hw ⊢
      rw [← hw]
      grind
  have hok : ∀ (acc : List CidOffer) (o : CidOffer), expired o t = false → (shelve t acc o).2 = true := by
    intro acc o h
    unfold shelve
    split
    · rfl
    · rw [if_neg (by simp [h])]
  refine ⟨m, outs, { m with dht := d2, ring := if swap then insertLink (insertLink r2 q) p else insertLink (insertLink r2 p) q },
    { s with dht := (shelve t (shelve t s.dht o).1 o').1, offered := c' :: c :: s.offered }, e1, ?_, ?_, ?_⟩
  · simp only [addTwo, f1, f2, g1, g2, bind, Except.bind, pure, Except.pure]
  · refine (steps_append h).2 ⟨outs, _, s, rfl, ?_, e2, ?_⟩
    · exact steps_length e2
    · refine ⟨_, _, { s with dht := (shelve t s.dht o).1, offered := c :: s.offered }, rfl, ?_, _, _, _, rfl, ?_, rfl, rfl⟩
      · simp only [Step, hc, hok _ _ he, and_self]
      · simp only [Step, hc', hok _ _ he', and_self]
  · intro x y max t' hx hy hxy
    obtain ⟨m2, out, s2, n1, n2, _⟩ := sim_strict (order := order) (orderE := orderE) (t := t') (op := .range x y max) hord hordE hh.2.2
      (m := { m with dht := d2, ring := if swap then insertLink (insertLink r2 q) p else insertLink (insertLink r2 p) q })
      (s := { s with dht := (shelve t (shelve t s.dht o).1 o').1, offered := c' :: c :: s.offered })
      (let g := g3 (if swap then insertLink (insertLink r2 q) p else insertLink (insertLink r2 p) q); ⟨g.dht, g.group, g.subD, g.subG⟩) f3
      (by simp [added]) ⟨hx, hy⟩ (fun a' b' max' h => by cases h; exact hxy)
    exact ⟨m2, out, s2, n1, n2⟩

/-- Contents 2, 5 and 9 are on offer. -/
def exH : List (Clock × Op) :=
  [(⟨1000, 0⟩, .addDht (exDht 2 2000)), (⟨1000, 1⟩, .addDht (exDht 9 2000)), (⟨1001, 0⟩, .addDht (exDht 5 2000))]

theorem exH_sane (a b : UInt8) : SaneHistory (fun x => x) (exH ++ [(⟨1002, 0⟩, .addDht (exDht a 2000)), (⟨1002, 0⟩, .addDht (exDht b 2000))]) := by
  refine ⟨?_, ?_, ?_⟩
  · intro o ho
    simp [exH, allAdded, added] at ho
    rcases ho with rfl | rfl | rfl | rfl | rfl <;> exact exDht_inRange _
  · intro e he
    simp only [exH, List.cons_append, List.nil_append, List.mem_cons, List.mem_nil_iff, or_false] at he
    rcases he with rfl | rfl | rfl | rfl | rfl <;> simp [ProperOp]
  · intro o _ o' _ b b' _ _ h
    exact h

theorem exH_safe : AllSafe [] exH := by
  simp only [exH, AllSafe, exDht]

theorem exH_cids : dhtCids exH = [Merkle.exId 2, Merkle.exId 9, Merkle.exId 5] := rfl

/-- Contents 6 and 7 have none between them. -/
example := C177_lost_refuted (H512 := fun x => x) (order := fun l => l) (orderE := fun l => l) (fun _ => .refl _) (fun _ => .refl _) exH ⟨1002, 0⟩ ⟨1003, 0⟩
  (exDht 6 2000) (exDht 7 2000) (Merkle.exId 6) (Merkle.exId 7) rfl rfl (exH_sane 6 7) exH_safe (by decide +kernel) (by decide +kernel) (by decide +kernel)
  (by rw [exH_cids]; decide +kernel) (by rw [exH_cids]; exact ⟨Merkle.exId 5, by decide +kernel, by decide +kernel⟩)
  (by rw [exH_cids]; exact ⟨Merkle.exId 9, by decide +kernel, by decide +kernel⟩)

/-- A range between contents 5 and 9. -/
example := C177_endless_refuted (H512 := fun x => x) (order := fun l => l) (orderE := fun l => l) (fun _ => .refl _) (fun _ => .refl _) exH
  ⟨fun o ho => (exH_sane 2 2).1 o (by simp [exH, allAdded, added] at ho ⊢; grind), fun e he => (exH_sane 2 2).2.1 e (by simp [he]),
    fun _ _ _ _ _ _ _ _ h => h⟩ exH_safe (Merkle.exId 6) (Merkle.exId 7) (Merkle.exId 2) (Merkle.exId 9) (Merkle.exId_proper _) (Merkle.exId_proper _) (by decide +kernel)
  (by rw [exH_cids]; decide +kernel) (by rw [exH_cids]; decide +kernel) (by rw [exH_cids]; decide +kernel) (by rw [exH_cids]; decide +kernel) (by decide +kernel)
  (by decide +kernel) (by decide +kernel)

/-- Content 6 is published while the range from 6 to 8 is listed. -/
example := C177_bound_refuted (H512 := fun x => x) (order := fun l => l) (orderE := fun l => l) (fun _ => .refl _) (fun _ => .refl _) exH ⟨1002, 0⟩ ⟨1003, 0⟩
  (exDht 6 2000) (Merkle.exId 6) (Merkle.exId 2) (Merkle.exId 8) rfl
  ⟨fun o ho => (exH_sane 6 6).1 o (by simp [exH, allAdded, added] at ho ⊢; grind), fun e he => (exH_sane 6 6).2.1 e (by simp at he ⊢; grind),
    fun _ _ _ _ _ _ _ _ h => h⟩ exH_safe (by decide +kernel) (by rw [exH_cids]; decide +kernel) (Merkle.exId_proper _) (by decide +kernel)
  (by rw [exH_cids]; decide +kernel) (by decide +kernel) (by decide +kernel)

/-- Contents 7 and 3 have content 5 between them. -/
example := C177_apart_partial (H512 := fun x => x) (order := fun l => l) (orderE := fun l => l) (fun _ => .refl _) (fun _ => .refl _) exH ⟨1002, 0⟩
  (exDht 7 2000) (exDht 3 2000) (Merkle.exId 7) (Merkle.exId 3) true rfl rfl (exH_sane 7 3) exH_safe (by decide +kernel) (by decide +kernel)
  (by rw [exH_cids]; decide +kernel) (by rw [exH_cids]; decide +kernel)
  (by rw [exH_cids]; exact ⟨Merkle.exId 5, by decide +kernel, Or.inr (by decide +kernel)⟩)
  (by rw [exH_cids]; exact ⟨Merkle.exId 2, by decide +kernel, by decide +kernel⟩) (by rw [exH_cids]; exact ⟨Merkle.exId 9, by decide +kernel, by decide +kernel⟩)

end FcRetrieval.RingShared
