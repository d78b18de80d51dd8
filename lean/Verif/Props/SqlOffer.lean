import Verif.Lemmas.SqlOffer
import Verif.Props.OfferMgr
/-!
# Properties of the database-backed offer manager (C26, C87, C88)

`order` is the order in which the database returns rows, `off` the offset of the host's clock from UTC in seconds, `now` the
time in seconds since 1970.
-/
set_option linter.unusedSimpArgs false
namespace FcRetrieval.SqlOffer
open FcRetrieval.Ids (Id Proper position)
open FcRetrieval.Merkle (Hash exId exId_proper toyHash)
open FcRetrieval.Offer (CidOffer terms InRange Built)

variable (H H512 : Hash) (order : List OfferRow → List OfferRow)

/-! ## what is stored -/

theorem stored_go : ∀ (h acc : List CidOffer), (acc.map terms).Nodup → (∀ o ∈ acc, o.price < 2 ^ 63 ∧ o.qos < 2 ^ 63) →
    (∀ o ∈ h.foldl keep acc, (o ∈ h ∨ o ∈ acc) ∧ o.price < 2 ^ 63 ∧ o.qos < 2 ^ 63) ∧
    (∀ o, (o ∈ h ∧ o.price < 2 ^ 63 ∧ o.qos < 2 ^ 63) ∨ o ∈ acc → ∃ o' ∈ h.foldl keep acc, terms o' = terms o) ∧
    ((h.foldl keep acc).map terms).Nodup
  | [], acc, hn, hb => ⟨fun o ho => ⟨Or.inr ho, hb o ho⟩, fun o ho => ⟨o, by simpa using ho, rfl⟩, hn⟩
  | x :: h, acc, hn, hb => by
    have hn' : ((keep acc x).map terms).Nodup := by
      unfold keep
      split
      · exact hn
      · split
        · exact hn
        · rename_i ha
          rw [List.map_append, List.nodup_append]
          refine ⟨hn, by simp, ?_⟩
          intro a ha' b hb' e
          simp at hb'
          subst hb'
          subst e
          obtain ⟨o', h1, h2⟩ := List.mem_map.1 ha'
          exact ha ((OfferMgr.any_terms_iff _ _).2 ⟨o', h1, h2⟩)
    have hb' : ∀ o ∈ keep acc x, o.price < 2 ^ 63 ∧ o.qos < 2 ^ 63 := by
      intro o ho
      unfold keep at ho
      split at ho
      · exact hb o ho
      · split at ho
        · exact hb o ho
        · rcases List.mem_append.1 ho with ho | ho
          · exact hb o ho
          · simp at ho; subst ho; omega
    obtain ⟨h1, h2, h3⟩ := stored_go h (keep acc x) hn' hb'
    refine ⟨?_, ?_, h3⟩
    · intro o ho
      obtain ⟨h4, h5⟩ := h1 o ho
      refine ⟨?_, h5⟩
      rcases h4 with h4 | h4
      · exact Or.inl (by simp [h4])
      · rcases keep_subset h4 with rfl | h4
        · exact Or.inl (by simp)
        · exact Or.inr h4
    · have hacc : ∀ o ∈ acc, o ∈ keep acc x := by
        intro o ho
        unfold keep
        split
        · exact ho
        · split
          · exact ho
          · exact List.mem_append.2 (Or.inl ho)
      rintro o (⟨ho, hq⟩ | ho)
      · rcases List.mem_cons.1 ho with rfl | ho
        · by_cases ha : acc.any (fun o' => decide (terms o' = terms o)) = true
          · obtain ⟨o', h4, h5⟩ := (OfferMgr.any_terms_iff _ _).1 ha
            obtain ⟨o2, h6, h7⟩ := h2 o' (Or.inr (hacc o' h4))
            exact ⟨o2, h6, h7.trans h5⟩
          · refine h2 o (Or.inr ?_)
            unfold keep
            rw [if_neg (by omega), if_neg ha]
            simp
        · exact h2 o (Or.inl ⟨ho, hq⟩)
      · exact h2 o (Or.inr (hacc o ho))

/-- **C26**, what a history of adds stores: only offers that were added, with a price and quality below 2^63; each such offer
or one with the same terms; no two with the same terms. -/
theorem C26_stored (h : List CidOffer) :
    (∀ o ∈ stored h, o ∈ h ∧ o.price < 2 ^ 63 ∧ o.qos < 2 ^ 63) ∧
    (∀ o ∈ h, o.price < 2 ^ 63 → o.qos < 2 ^ 63 → ∃ o' ∈ stored h, terms o' = terms o) ∧
    ((stored h).map terms).Nodup := by
  obtain ⟨h1, h2, h3⟩ := stored_go h [] (by simp) (by simp)
  refine ⟨fun o ho => ⟨?_, (h1 o ho).2⟩, fun o ho hp hq => h2 o (Or.inl ⟨ho, hp, hq⟩), h3⟩
  simpa using (h1 o ho).1

theorem run_new (h : List (Kind × CidOffer)) (hs : Sane H H512 (h.map (·.2))) :
    run H512 newDB h = .ok (encode H512 (stored (h.map (·.2))), h.map (fun e => decide (e.2.price < 2 ^ 63) && decide (e.2.qos < 2 ^ 63))) ∧
    Good H H512 (stored (h.map (·.2))) :=
  run_rep h [] ⟨by simp, by simp⟩ hs.1 (by simpa using hs.2)

/-- **C26**: adds return, and report success unless a number is too large for the database. -/
theorem C26_add (h : List (Kind × CidOffer)) (hs : Sane H H512 (h.map (·.2))) :
    ∃ db oks, run H512 newDB h = .ok (db, oks) ∧
      oks = h.map (fun e => decide (e.2.price < 2 ^ 63) && decide (e.2.qos < 2 ^ 63)) :=
  ⟨_, _, (run_new H H512 h hs).1, rfl⟩

/-- When the database takes an offer for unexpired. -/
theorem unexpired_iff (off now expiry : Int) (h : 0 ≤ now - off) :
    unexpired off now expiry = true ↔ now - off < expiry ∧ expiry ≤ 253402300799 := by
  unfold unexpired
  simp only [Bool.and_eq_true, decide_eq_true_eq]
  omega

theorem flatMap_map {α β : Type} (f : α → β) (g : α → List α) (k : β → List β) :
    ∀ (l : List α), (∀ a ∈ l, k (f a) = (g a).map f) → (l.map f).flatMap k = (l.flatMap g).map f
  | [], _ => rfl
  | a :: l, h => by
    simp only [List.map_cons, List.flatMap_cons, List.map_append]
    rw [h a (by simp), flatMap_map f g k l (fun x hx => h x (by simp [hx]))]

theorem count_rows (d : List Char) (o : CidOffer) (c : Id) (hc : Proper c) (hcs : ∀ x ∈ o.cids, Proper x) (row : OfferRow) :
    ((contentRows d o).filter (fun k => k.cid = Ids.toStr c)).map (fun _ => row) = List.replicate (o.cids.count c) row := by
  have key : ∀ (l : List Id) (n : Nat), (∀ x ∈ l, Proper x) →
      (((l.zipIdx n).map (fun e => (⟨Ids.toStr e.1, e.2, d⟩ : ContentRow))).filter (fun k => decide (k.cid = Ids.toStr c))).map (fun _ => row) =
        List.replicate (l.count c) row := by
    intro l
    induction l with
    | nil => intro n _; rfl
    | cons a l ih =>
      intro n hl
      have ih' := ih (n + 1) (fun x hx => hl x (by simp [hx]))
      simp only [List.zipIdx_cons, List.map_cons, List.filter_cons, OfferMgr.toStr_inj (hl a (by simp)) hc, List.count_cons]
      by_cases e : a = c
      · subst e
        simp only [decide_true, if_true, List.map_cons, ih', beq_self_eq_true]
        rw [List.replicate_succ]
      · simp only [e, decide_false, Bool.false_eq_true, if_false, ih', beq_iff_eq, Nat.add_zero]
  exact key o.cids 0 hcs

/-- **C26**, lookups by CID: exactly the stored offers of the content that the database takes for unexpired (see
`unexpired_iff`), each as often as it lists the content.  `GetOffers`, `GetGroupOffers` and `GetDHTOffers` are this lookup. -/
theorem C26_by_cid (hord : ∀ l, (order l).Perm l) (h : List (Kind × CidOffer)) (hs : Sane H H512 (h.map (·.2))) (c : Id) (hc : Proper c)
    (off now : Int) (hnow : 0 ≤ now - off) :
    ∃ db oks l, run H512 newDB h = .ok (db, oks) ∧ getOffers H order off now db c = .ok (l, !l.isEmpty) ∧
      l.Perm ((stored (h.map (·.2))).flatMap (fun o =>
        if now - off < o.expiry ∧ o.expiry ≤ 253402300799 then List.replicate (o.cids.count c) o else [])) := by
  obtain ⟨hrun, hg⟩ := run_new H H512 h hs
  generalize hacc : stored (h.map (·.2)) = acc at *
  have hrows : ((encode H512 acc).offers.flatMap (fun o =>
      if unexpired off now o.expiry then ((encode H512 acc).contents.filter (fun k => decide (k.digest = o.digest ∧ k.cid = Ids.toStr c))).map (fun _ => o) else [])) =
      (acc.flatMap (fun o => if now - off < o.expiry ∧ o.expiry ≤ 253402300799 then List.replicate (o.cids.count c) o else [])).map (rowOf H512) := by
    refine flatMap_map _ _ _ acc ?_
    intro o ho
    have e1 : (rowOf H512 o).digest = dhex H512 o := rfl
    have e2 : (rowOf H512 o).expiry = o.expiry := rfl
    rw [e1, e2]
    by_cases hu : unexpired off now o.expiry = true
    · rw [if_pos hu, if_pos ((unexpired_iff off now _ hnow).1 hu)]
      have : (encode H512 acc).contents.filter (fun k => decide (k.digest = dhex H512 o ∧ k.cid = Ids.toStr c)) =
          ((encode H512 acc).contents.filter (fun k => decide (k.digest = dhex H512 o))).filter (fun k => decide (k.cid = Ids.toStr c)) := by
        rw [List.filter_filter]
        congr 1
        funext k
        rw [Bool.eq_iff_iff]
        simp [and_comm]
      rw [this, filter_digest hg.distinct ho, count_rows _ _ _ hc (hg.built o ho).1.2.1, List.map_replicate]
    · rw [if_neg hu, if_neg (fun h => hu ((unexpired_iff off now _ hnow).2 h))]
      rfl
  obtain ⟨L, hL, hLe⟩ := perm_map_exists (rowOf H512) _ _ (hord ((acc.flatMap (fun o : CidOffer => if now - off < o.expiry ∧ o.expiry ≤ 253402300799 then List.replicate (o.cids.count c) o else [])).map (rowOf H512)))
  refine ⟨_, _, L, hrun, ?_, hL⟩
  unfold getOffers selectSingle
  simp only [hrows, hLe]
  rw [selectGo_encode hg (-1) L ?_ [] false (by omega)]
  · simp
  · intro o ho
    obtain ⟨o', h1, h2⟩ := List.mem_flatMap.1 (hL.mem_iff.1 ho)
    split at h2
    · rw [List.eq_of_mem_replicate h2]; exact h1
    · simp at h2

theorem flatMap_filter {α : Type} (p : α → Prop) [DecidablePred p] (n : α → Nat) (q : α → Bool) : ∀ (l : List α), (∀ a ∈ l, n a = if q a then 1 else 0) →
    l.flatMap (fun a => if p a then List.replicate (n a) a else []) = l.filter (fun a => q a && decide (p a))
  | [], _ => rfl
  | a :: l, h => by
    rw [List.flatMap_cons, flatMap_filter p n q l (fun x hx => h x (by simp [hx])), List.filter_cons, h a (by simp)]
    by_cases hp : p a <;> cases hq : q a <;> simp [hp, hq]

/-- **C26** as stated for lookups by CID, on a host that keeps UTC, for offers that expire before the year 10000 and list no
content twice: exactly the stored unexpired offers of the content, each once.  Missing: other time zones, later dates and
repeated contents, for which it is false (`C26_time_zone_refuted`, `C26_far_expiry_refuted`, `C26_repeated_content_refuted`). -/
theorem C26_by_cid_partial (hord : ∀ l, (order l).Perm l) (h : List (Kind × CidOffer)) (hs : Sane H H512 (h.map (·.2))) (c : Id)
    (hc : Proper c) (now : Int) (hnow : 0 ≤ now) (hexp : ∀ o ∈ h.map (·.2), o.expiry ≤ 253402300799 ∧ o.cids.Nodup) :
    ∃ db oks l, run H512 newDB h = .ok (db, oks) ∧ getOffers H order 0 now db c = .ok (l, !l.isEmpty) ∧
      l.Perm ((stored (h.map (·.2))).filter (fun o => decide (c ∈ o.cids) && decide (now < o.expiry))) := by
  obtain ⟨db, oks, l, h1, h2, h3⟩ := C26_by_cid H H512 order hord h hs c hc 0 now (by omega)
  refine ⟨db, oks, l, h1, h2, h3.trans ?_⟩
  rw [flatMap_filter (fun o : CidOffer => now - 0 < o.expiry ∧ o.expiry ≤ 253402300799) (fun o : CidOffer => o.cids.count c) (fun o : CidOffer => decide (c ∈ o.cids))]
  · have : (stored (h.map (·.2))).filter (fun o => decide (c ∈ o.cids) && decide (now - 0 < o.expiry ∧ o.expiry ≤ 253402300799)) =
        (stored (h.map (·.2))).filter (fun o => decide (c ∈ o.cids) && decide (now < o.expiry)) := by
      apply List.filter_congr
      intro o ho
      have := (hexp o ((C26_stored _).1 o ho).1).1
      rw [Bool.eq_iff_iff]
      simp only [Bool.and_eq_true, decide_eq_true_eq]
      exact and_congr_right (fun _ => ⟨fun h => by omega, fun h => by omega⟩)
    rw [this]
  · intro o ho
    have hn := (hexp o ((C26_stored _).1 o ho).1).2
    by_cases hm : c ∈ o.cids
    · simp [hm, hn.count]
    · simp [hm, List.count_eq_zero_of_not_mem hm]

/-- **C26**, range listings: the offers with a content between the bounds (as numbers, both included), unexpired to the
database, in some order; with a positive limit the first so many of them. -/
theorem C26_range (hord : ∀ l, (order l).Perm l) (h : List (Kind × CidOffer)) (hs : Sane H H512 (h.map (·.2))) (a b : Id)
    (ha : Proper a) (hb : Proper b) (max : Int) (off now : Int) (hnow : 0 ≤ now - off) :
    ∃ db oks full, run H512 newDB h = .ok (db, oks) ∧
      full.Perm ((stored (h.map (·.2))).filter (fun o => (o.cids.any (fun c => decide (position a ≤ position c ∧ position c ≤ position b))) &&
        decide (now - off < o.expiry ∧ o.expiry ≤ 253402300799))) ∧
      getDhtRange H order off now db a b max = .ok (if max ≤ 0 then full else full.take max.toNat, !full.isEmpty) := by
  obtain ⟨hrun, hg⟩ := run_new H H512 h hs
  generalize hacc : stored (h.map (·.2)) = acc at *
  have hrows : ((encode H512 acc).offers.filter (fun o =>
      (encode H512 acc).contents.any (fun k => decide (k.digest = o.digest ∧ strLe (Ids.toStr a) k.cid = true ∧ strLe k.cid (Ids.toStr b) = true)) && unexpired off now o.expiry)) =
      (acc.filter (fun o => (o.cids.any (fun c => decide (position a ≤ position c ∧ position c ≤ position b))) &&
        decide (now - off < o.expiry ∧ o.expiry ≤ 253402300799))).map (rowOf H512) := by
    have e0 : (encode H512 acc).offers = acc.map (rowOf H512) := rfl
    rw [e0, List.filter_map]
    congr 1
    apply List.filter_congr
    intro o ho
    have e2 : (rowOf H512 o).expiry = o.expiry := rfl
    simp only [Function.comp, e2]
    have hex : decide (now - off < o.expiry ∧ o.expiry ≤ 253402300799) = unexpired off now o.expiry := by
      rw [Bool.eq_iff_iff, unexpired_iff off now _ hnow, decide_eq_true_eq]
    rw [hex]
    congr 1
    rw [Bool.eq_iff_iff, List.any_eq_true, List.any_eq_true]
    constructor
    · rintro ⟨k, hk, hd⟩
      rw [decide_eq_true_eq] at hd
      obtain ⟨hd1, hd2, hd3⟩ := hd
      have hk' : k ∈ contentRows (dhex H512 o) o := by
        rw [← filter_digest hg.distinct ho]
        exact List.mem_filter.2 ⟨hk, by rw [decide_eq_true_eq]; exact hd1⟩
      have : k.cid ∈ Ids.mapToString o.cids := by
        rw [← contentRows_cids (dhex H512 o) o]
        exact List.mem_map.2 ⟨k, hk', rfl⟩
      obtain ⟨c, hc1, hc2⟩ := List.mem_map.1 this
      have hcp := (hg.built o ho).1.2.1 c hc1
      rw [← hc2] at hd2 hd3
      exact ⟨c, hc1, by rw [decide_eq_true_eq]; exact ⟨(strLe_toStr ha hcp).1 hd2, (strLe_toStr hcp hb).1 hd3⟩⟩
    · rintro ⟨c, hc, hd⟩
      rw [decide_eq_true_eq] at hd
      have hcp := (hg.built o ho).1.2.1 c hc
      have : Ids.toStr c ∈ (contentRows (dhex H512 o) o).map (·.cid) := by
        rw [contentRows_cids]; exact List.mem_map.2 ⟨c, hc, rfl⟩
      obtain ⟨k, hk, hkc⟩ := List.mem_map.1 this
      refine ⟨k, List.mem_flatMap.2 ⟨o, ho, hk⟩, ?_⟩
      rw [decide_eq_true_eq, hkc]
      exact ⟨contentRows_digest hk, (strLe_toStr ha hcp).2 hd.1, (strLe_toStr hcp hb).2 hd.2⟩
  obtain ⟨L, hL, hLe⟩ := perm_map_exists (rowOf H512) _ _ (hord ((acc.filter (fun o : CidOffer => (o.cids.any (fun c => decide (position a ≤ position c ∧ position c ≤ position b))) &&
        decide (now - off < o.expiry ∧ o.expiry ≤ 253402300799))).map (rowOf H512)))
  refine ⟨_, _, L, hrun, hL, ?_⟩
  unfold getDhtRange selectRange
  simp only [hrows, hLe]
  rw [selectGo_encode hg max L ?_ [] false (by simp)]
  · simp
  · intro o ho
    exact (List.mem_filter.1 (hL.mem_iff.1 ho)).1

/-- **C26**, lookups by digest: the stored offer of that digest if there is one and the database takes it for unexpired. -/
theorem C26_by_digest (hord : ∀ l, (order l).Perm l) (h : List (Kind × CidOffer)) (hs : Sane H H512 (h.map (·.2))) (d : Bytes)
    (off now : Int) (hnow : 0 ≤ now - off) :
    ∃ db oks r, run H512 newDB h = .ok (db, oks) ∧ getByDigest H order off now db d = .ok r ∧
      ∀ o, r = some o ↔ o ∈ stored (h.map (·.2)) ∧ Offer.digest H512 o = .ok d ∧ now - off < o.expiry ∧ o.expiry ≤ 253402300799 := by
  obtain ⟨hrun, hg⟩ := run_new H H512 h hs
  generalize hacc : stored (h.map (·.2)) = acc at *
  have e0 : (encode H512 acc).offers = acc.map (rowOf H512) := rfl
  have hiff : ∀ o ∈ acc, (dhex H512 o = hexEncode d ↔ Offer.digest H512 o = .ok d) := by
    intro o ho
    obtain ⟨d', hd', _⟩ := OfferMgr.digest_ok H512 (hg.built o ho).1
    rw [dhex_eq hd', hd']
    constructor
    · intro e; rw [hexEncode_inj e]
    · intro e; injection e with e; rw [e]
  obtain ⟨L, hL, hLe⟩ := perm_map_exists (rowOf H512) _ _ (hord ((acc.filter (fun o => decide (dhex H512 o = hexEncode d) && unexpired off now o.expiry)).map (rowOf H512)))
  have hmem : ∀ o, o ∈ L ↔ o ∈ acc ∧ Offer.digest H512 o = .ok d ∧ now - off < o.expiry ∧ o.expiry ≤ 253402300799 := by
    intro o
    rw [hL.mem_iff, List.mem_filter, Bool.and_eq_true, decide_eq_true_eq, unexpired_iff off now _ hnow]
    constructor
    · rintro ⟨h1, h2, h3⟩; exact ⟨h1, (hiff o h1).1 h2, h3⟩
    · rintro ⟨h1, h2, h3⟩; exact ⟨h1, (hiff o h1).2 h2, h3⟩
  have huniq : ∀ o ∈ L, ∀ o' ∈ L, o = o' := by
    intro o ho o' ho'
    obtain ⟨h1, h2, _⟩ := (hmem o).1 ho
    obtain ⟨h1', h2', _⟩ := (hmem o').1 ho'
    have hd : acc.Pairwise (fun o o' => Offer.digest H512 o ≠ Offer.digest H512 o') :=
      hg.distinct.imp (fun hne e => hne (by unfold dhex; rw [e]))
    exact OfferMgr.distinct_eq hd h1 h1' (by rw [h2, h2'])
  have hsel : getByDigest H order off now (encode H512 acc) d = .ok L.head? := by
    unfold getByDigest selectDigest
    have : ((acc.map (rowOf H512)).filter (fun o => decide (o.digest = hexEncode d) && unexpired off now o.expiry)) =
        (acc.filter (fun o => decide (dhex H512 o = hexEncode d) && unexpired off now o.expiry)).map (rowOf H512) := by
      rw [List.filter_map]; rfl
    simp only [e0, this, hLe]
    rw [selectGo_encode hg 1 L (fun o ho => ((hmem o).1 ho).1) [] false (by simp)]
    cases L with
    | nil => simp
    | cons o L => simp
  refine ⟨_, _, L.head?, hrun, hsel, ?_⟩
  intro o
  rw [← hmem o]
  cases hLc : L with
  | nil => simp
  | cons x L' =>
    have := huniq x (by simp [hLc])
    simp only [List.head?_cons, Option.some.injEq]
    constructor
    · rintro rfl; simp
    · intro ho; exact this o (by rw [hLc]; exact ho)

/-- **C26**: adding an offer again changes nothing and reports success. -/
theorem C26_again (h : List (Kind × CidOffer)) (k k' : Kind) (o : CidOffer) (hs : Sane H H512 (h.map (·.2) ++ [o])) (ho : (k, o) ∈ h)
    (hp : o.price < 2 ^ 63) (hq : o.qos < 2 ^ 63) :
    ∃ db oks, run H512 newDB h = .ok (db, oks) ∧ run H512 db [(k', o)] = .ok (db, [true]) := by
  have hs' : Sane H H512 (h.map (·.2)) := ⟨fun x hx => hs.1 x (by simp at hx ⊢; exact Or.inl hx),
    fun x hx y hy => hs.2 x (List.mem_append.2 (Or.inl hx)) y (List.mem_append.2 (Or.inl hy))⟩
  obtain ⟨hrun, hg⟩ := run_new H H512 h hs'
  refine ⟨_, _, hrun, ?_⟩
  obtain ⟨o', h1, h2⟩ := (C26_stored (h.map (·.2))).2.1 o (List.mem_map.2 ⟨_, ho, rfl⟩) hp hq
  have := run_rep (H := H) [(k', o)] (stored (h.map (·.2))) hg (fun x hx => hs.1 x (by simp at hx; simp [hx])) (by
    intro x hx y hy
    have hm : ∀ z ∈ [o] ++ stored (h.map (·.2)), z ∈ h.map (·.2) ++ [o] := by
      intro z hz
      rcases List.mem_append.1 hz with hz | hz
      · exact List.mem_append.2 (Or.inr hz)
      · exact List.mem_append.2 (Or.inl ((C26_stored _).1 z hz).1)
    exact hs.2 x (hm x hx) y (hm y hy))
  rw [this.1]
  simp only [List.map_cons, List.map_nil, List.foldl_cons, List.foldl_nil, hp, hq, decide_true, Bool.and_self]
  have hk : keep (stored (h.map (·.2))) o = stored (h.map (·.2)) := by
    unfold keep
    rw [if_neg (by omega), if_pos ((OfferMgr.any_terms_iff _ _).2 ⟨o', h1, h2⟩)]
  rw [hk]

/-! ## where C26 fails -/

theorem stored_one (o : CidOffer) (hp : o.price < 2 ^ 63) (hq : o.qos < 2 ^ 63) : stored [o] = [o] := by
  simp only [stored, List.foldl_cons, List.foldl_nil, keep]
  rw [if_neg (by omega)]
  simp

theorem sane_one {o : CidOffer} (ho : Built H o) : Sane H H512 [o] := by
  refine ⟨by simpa using ho, ?_⟩
  intro x hx y hy b b' h1 h2 _
  simp at hx hy
  subst hx hy
  rw [h1] at h2
  injection h2

/-- A lookup after one add. -/
theorem one_add (hord : ∀ l, (order l).Perm l) (k : Kind) (o : CidOffer) (ho : Built H o) (hp : o.price < 2 ^ 63) (hq : o.qos < 2 ^ 63)
    (c : Id) (hc : Proper c) (off now : Int) (hnow : 0 ≤ now - off) :
    ∃ db, run H512 newDB [(k, o)] = .ok (db, [true]) ∧ ∃ l, getOffers H order off now db c = .ok (l, !l.isEmpty) ∧
      l = if now - off < o.expiry ∧ o.expiry ≤ 253402300799 then List.replicate (o.cids.count c) o else [] := by
  obtain ⟨db, oks, l, h1, h2, h3⟩ := C26_by_cid H H512 order hord [(k, o)] (sane_one H H512 ho) c hc off now hnow
  have h1' := (run_new H H512 [(k, o)] (sane_one H H512 ho)).1
  rw [h1] at h1'
  injection h1' with h1'
  injection h1' with h4 h5
  refine ⟨db, ?_, l, h2, ?_⟩
  · rw [h1, h5]; simp [hp, hq]
  · simp only [List.map_cons, List.map_nil, stored_one o hp hq, List.flatMap_cons, List.flatMap_nil, List.append_nil] at h3
    split at h3
    · rename_i hh
      rw [if_pos hh]
      exact List.perm_replicate.1 h3
    · rename_i hh
      rw [if_neg hh]
      exact h3.eq_nil

/-- **C26 is false** off UTC: east of Greenwich an offer is still listed for `off` seconds after it has expired; west of it an
offer is no longer listed although it has not expired. -/
theorem C26_time_zone_refuted (hord : ∀ l, (order l).Perm l) (o : CidOffer) (c : Id) (ho : Built H o) (hp : o.price < 2 ^ 63)
    (hq : o.qos < 2 ^ 63) (hc : o.cids = [c]) (hex : o.expiry ≤ 253402300799) (off now : Int) (hnow : 0 ≤ now - off) :
    ∃ db, run H512 newDB [(.dht, o)] = .ok (db, [true]) ∧
      (o.expiry < now → now < o.expiry + off → getOffers H order off now db c = .ok ([o], true)) ∧
      (now < o.expiry → o.expiry ≤ now - off → getOffers H order off now db c = .ok ([], false)) := by
  obtain ⟨db, h1, l, h2, h3⟩ := one_add H H512 order hord .dht o ho hp hq c (ho.1.2.1 c (by simp [hc])) off now hnow
  refine ⟨db, h1, ?_, ?_⟩
  · intro a b
    rw [h2, h3, if_pos ⟨by omega, hex⟩, hc]
    simp
  · intro a b
    rw [h2, h3, if_neg (by omega)]
    simp

/-- **C26 is false** for offers that expire after the year 9999: they are never listed. -/
theorem C26_far_expiry_refuted (hord : ∀ l, (order l).Perm l) (o : CidOffer) (c : Id) (ho : Built H o) (hp : o.price < 2 ^ 63)
    (hq : o.qos < 2 ^ 63) (hc : c ∈ o.cids) (hex : 253402300799 < o.expiry) (now : Int) (hnow : 0 ≤ now) :
    ∃ db, run H512 newDB [(.dht, o)] = .ok (db, [true]) ∧ getOffers H order 0 now db c = .ok ([], false) := by
  obtain ⟨db, h1, l, h2, h3⟩ := one_add H H512 order hord .dht o ho hp hq c (ho.1.2.1 c hc) 0 now (by omega)
  refine ⟨db, h1, ?_⟩
  rw [h2, h3, if_neg (by omega)]
  rfl

/-- **C26 is false** for an offer that names a content twice: it is listed twice. -/
theorem C26_repeated_content_refuted (hord : ∀ l, (order l).Perm l) (o : CidOffer) (c : Id) (ho : Built H o) (hp : o.price < 2 ^ 63)
    (hq : o.qos < 2 ^ 63) (hc : o.cids = [c, c]) (now : Int) (hnow : 0 ≤ now) (hex : now < o.expiry) (hex' : o.expiry ≤ 253402300799) :
    ∃ db, run H512 newDB [(.group, o)] = .ok (db, [true]) ∧ getOffers H order 0 now db c = .ok ([o, o], true) := by
  obtain ⟨db, h1, l, h2, h3⟩ := one_add H H512 order hord .group o ho hp hq c (ho.1.2.1 c (by simp [hc])) 0 now (by omega)
  refine ⟨db, h1, ?_⟩
  rw [h2, h3, if_pos ⟨by omega, hex'⟩, hc]
  simp [List.replicate]

/-! ## C87 group offers and DHT offers are kept apart -/

/-- **C87 is false** in the gateway's store: an offer added as a DHT offer is listed as a group offer and the other way round;
in particular a range listing of DHT offers contains group offers. -/
theorem C87_kinds_refuted (hord : ∀ l, (order l).Perm l) (k : Kind) (o : CidOffer) (c : Id) (ho : Built H o) (hp : o.price < 2 ^ 63)
    (hq : o.qos < 2 ^ 63) (hc : c ∈ o.cids) (hn : o.cids.Nodup) (now : Int) (hnow : 0 ≤ now) (hex : now < o.expiry) (hex' : o.expiry ≤ 253402300799) :
    ∃ db, run H512 newDB [(k, o)] = .ok (db, [true]) ∧ getGroup H order 0 now db c = .ok ([o], true) ∧
      getDht H order 0 now db c = .ok ([o], true) ∧ getDhtRange H order 0 now db c c 10 = .ok ([o], true) := by
  have hcp := ho.1.2.1 c hc
  obtain ⟨db, h1, l, h2, h3⟩ := one_add H H512 order hord k o ho hp hq c hcp 0 now (by omega)
  rw [if_pos ⟨by omega, hex'⟩, hn.count, if_pos hc] at h3
  simp only [List.replicate] at h3
  subst h3
  obtain ⟨db', oks, full, h4, h5, h6⟩ := C26_range H H512 order hord [(k, o)] (sane_one H H512 ho) c c hcp hcp 10 0 now (by omega)
  rw [h1] at h4
  injection h4 with h4
  injection h4 with h4 _
  subst h4
  refine ⟨db, h1, h2, h2, ?_⟩
  have hfull : full = [o] := by
    simp only [List.map_cons, List.map_nil, stored_one o hp hq] at h5
    rw [List.filter_cons_of_pos] at h5
    · exact List.perm_singleton.1 h5
    · rw [Bool.and_eq_true, decide_eq_true_eq]
      refine ⟨?_, by omega, hex'⟩
      rw [List.any_eq_true]
      exact ⟨c, hc, by simp⟩
  rw [h6, hfull]
  rfl

/-- **C87**, what holds: both ways of adding and all three lookups by CID are the same, so nothing is missed. -/
theorem C87_partial (fails : Nat → Bool) (db : DB) (o : CidOffer) (c : Id) (off now : Int) :
    addGroup H512 fails db o = addDht H512 fails db o ∧
    getGroup H order off now db c = getOffers H order off now db c ∧ getDht H order off now db c = getOffers H order off now db c :=
  ⟨rfl, rfl, rfl⟩

/-! ## C88 interrupted adds -/

theorem interrupted_eq {H512 : Hash} {db : DB} {o : CidOffer} (ho : InRange o) (n : Nat) :
    interrupted H512 n db o = .ok (((Stmt.offer (rowOf H512 o) :: (contentRows (dhex H512 o) o).map .content).take n).foldl runStmt db) := by
  obtain ⟨d, hd, _⟩ := OfferMgr.digest_ok H512 ho
  obtain ⟨⟨p, hp, _⟩, _⟩ := ho
  unfold interrupted
  simp only [hd, Res.bind_ok, hp, Res.pure_ok]
  unfold rowOf
  rw [dhex_eq hd, hp]; rfl

/-- **C88**, what holds: wherever an add is interrupted, adding the offer again completes it: the database is then the same as
after an add that was not interrupted. -/
theorem C88_repeated_add_completes_partial (h : List (Kind × CidOffer)) (k : Kind) (o : CidOffer) (n : Nat)
    (hs : Sane H H512 (h.map (·.2) ++ [o])) :
    ∃ db oks db1 db2, run H512 newDB h = .ok (db, oks) ∧ interrupted H512 n db o = .ok db1 ∧
      (o.price < 2 ^ 63 → o.qos < 2 ^ 63 → run H512 db1 [(k, o)] = .ok (db2, [true]) ∧ run H512 db [(k, o)] = .ok (db2, [true])) := by
  have hs' : Sane H H512 (h.map (·.2)) := ⟨fun x hx => hs.1 x (by simp at hx ⊢; exact Or.inl hx),
    fun x hx y hy => hs.2 x (List.mem_append.2 (Or.inl hx)) y (List.mem_append.2 (Or.inl hy))⟩
  obtain ⟨hrun, hg⟩ := run_new H H512 h hs'
  have ho : Built H o := hs.1 o (by simp)
  have hm : ∀ z ∈ o :: stored (h.map (·.2)), z ∈ h.map (·.2) ++ [o] := by
    intro z hz
    rcases List.mem_cons.1 hz with rfl | hz
    · simp
    · exact List.mem_append.2 (Or.inl ((C26_stored _).1 z hz).1)
  have hno : OfferMgr.NoCollision H512 (o :: stored (h.map (·.2))) := fun x hx y hy => hs.2 x (hm x hx) y (hm y hy)
  generalize hacc : stored (h.map (·.2)) = acc at *
  refine ⟨_, _, _, encode H512 (keep acc o), hrun, interrupted_eq ho.1 n, ?_⟩
  intro hp hq
  have hb : bindable o = true := by simp [bindable, hp, hq]
  have hrun1 : ∀ db db', insertOffer H512 (fun _ => false) db o = .ok (db', true) → run H512 db [(k, o)] = .ok (db', [true]) := by
    intro db db' hi
    cases k <;> simp only [run, addGroup, addDht, hi, Res.bind_ok, Res.pure_ok]
  have hins := insert_rep hg ho hno
  have htrue : (decide (o.price < 2 ^ 63) && decide (o.qos < 2 ^ 63)) = true := hb
  rw [htrue] at hins
  refine ⟨hrun1 _ _ ?_, hrun1 _ _ hins⟩
  rw [insert_eq ho.1, if_pos hb] at hins ⊢
  by_cases ha : acc.any (fun o' => decide (terms o' = terms o)) = true
  · obtain ⟨o', ho', ht⟩ := (OfferMgr.any_terms_iff _ _).1 ha
    have hd := (dhex_iff (hg.built o' ho').1 ho.1 (hno o' (by simp [ho']) o (by simp))).2 ht
    have hsame : ((Stmt.offer (rowOf H512 o) :: (contentRows (dhex H512 o) o).map Stmt.content).take n).foldl runStmt (encode H512 acc) = encode H512 acc := by
      have h1 : runStmt (encode H512 acc) (.offer (rowOf H512 o)) = encode H512 acc := by
        simp only [runStmt]
        rw [if_pos]
        rw [List.any_eq_true]
        exact ⟨rowOf H512 o', List.mem_map.2 ⟨o', ho', rfl⟩, by rw [decide_eq_true_eq]; exact hd⟩
      cases n with
      | zero => rfl
      | succ n =>
        rw [List.take_succ_cons, List.foldl_cons, h1, ← List.map_take]
        refine foldl_present _ _ ?_
        intro r hr
        have hr := List.mem_of_mem_take hr
        rw [← contentRows_terms ht] at hr
        exact List.mem_flatMap.2 ⟨o', ho', hr⟩
    rw [hsame]
    exact hins
  · have hnew : ∀ o' ∈ acc, dhex H512 o' ≠ dhex H512 o := by
      intro o' ho' e
      rw [dhex_iff (hg.built o' ho').1 ho.1 (hno o' (by simp [ho']) o (by simp))] at e
      exact ha ((OfferMgr.any_terms_iff _ _).2 ⟨o', ho', e⟩)
    cases n with
    | zero => exact hins
    | succ n =>
      rw [foldl_statements hnew n]
      have hk : keep acc o = acc ++ [o] := by
        unfold keep
        rw [if_neg (by omega), if_neg ha]
      rw [hk, encode_snoc]
      generalize hrows : contentRows (dhex H512 o) o = rows
      have hsort := contentRows_sorted (dhex H512 o) o
      rw [hrows] at hsort
      have h1 : ∀ C, runStmt ⟨(acc ++ [o]).map (rowOf H512), C⟩ (.offer (rowOf H512 o)) = ⟨(acc ++ [o]).map (rowOf H512), C⟩ := by
        intro C
        simp only [runStmt]
        rw [if_pos]
        rw [List.any_eq_true]
        exact ⟨rowOf H512 o, by simp, by simp⟩
      rw [h1]
      have e0 : rows.map Stmt.content = (rows.take n).map Stmt.content ++ (rows.drop n).map Stmt.content := by
        rw [← List.map_append, List.take_append_drop]
      rw [e0, List.foldl_append]
      have e1 : ((rows.take n).map Stmt.content).foldl runStmt ⟨(acc ++ [o]).map (rowOf H512), (encode H512 acc).contents ++ rows.take n⟩ =
          ⟨(acc ++ [o]).map (rowOf H512), (encode H512 acc).contents ++ rows.take n⟩ := by
        refine foldl_present _ _ ?_
        intro r hr
        exact List.mem_append.2 (Or.inr hr)
      rw [e1, foldl_absent]
      · simp [List.append_assoc]
      · exact hsort.sublist (List.drop_sublist _ _)
      · intro r hr x hx
        rcases List.mem_append.1 hx with hx | hx
        · obtain ⟨o', ho', hx⟩ := List.mem_flatMap.1 hx
          have hr' : r ∈ contentRows (dhex H512 o) o := by rw [hrows]; exact List.mem_of_mem_drop hr
          rw [contentRows_digest hx, contentRows_digest hr']
          exact fun e => hnew o' ho' e.2
        · have hlt : x.no < r.no := by
            rw [← List.take_append_drop n rows, List.pairwise_append] at hsort
            exact hsort.2.2 x hx r hr
          omega

/-- **C88 is false**: an add interrupted after its first statement leaves an offer without content, and looking it up by its
digest afterwards is a nil dereference. -/
theorem C88_lookup_crash_refuted (hord : ∀ l, (order l).Perm l) (o : CidOffer) (d : Bytes) (ho : Built H o)
    (hd : Offer.digest H512 o = .ok d) (off now : Int) (h0 : 0 ≤ now - off) (hnow : now - off < o.expiry) (hex : o.expiry ≤ 253402300799) :
    ∃ db, interrupted H512 1 newDB o = .ok db ∧ getByDigest H order off now db d = .panic := by
  refine ⟨⟨[rowOf H512 o], []⟩, ?_, ?_⟩
  · rw [interrupted_eq ho.1]; rfl
  · have hr : ([rowOf H512 o].filter (fun r : OfferRow => r.digest = hexEncode d && unexpired off now r.expiry)) = [rowOf H512 o] := by
      rw [List.filter_cons_of_pos, List.filter_nil]
      rw [Bool.and_eq_true, decide_eq_true_eq]
      refine ⟨by simp [rowOf, offerRow, dhex_eq hd], ?_⟩
      rw [show (rowOf H512 o).expiry = o.expiry from rfl, unexpired_iff _ _ _ h0]
      exact ⟨hnow, hex⟩
    have ho1 : order [rowOf H512 o] = [rowOf H512 o] := List.perm_singleton.1 (hord _)
    have hcon : contentOf ⟨[rowOf H512 o], []⟩ (rowOf H512 o).digest = [] := by simp [contentOf]
    unfold getByDigest selectDigest
    simp only [hr, ho1]
    unfold selectGo rebuild
    simp only [hcon, Ids.mapFromString]
    rfl

/-- **C88 is false**: an add interrupted after its second statement leaves an offer of the first content only, with another
Merkle root than the one that was signed. -/
theorem C88_truncated_refuted (hord : ∀ l, (order l).Perm l) (o : CidOffer) (c c' : Id) (rest : List Id) (ho : Built H o)
    (hc : o.cids = c :: c' :: rest) (off now : Int) (h0 : 0 ≤ now - off) (hnow : now - off < o.expiry) (hex : o.expiry ≤ 253402300799) :
    ∃ db o', interrupted H512 2 newDB o = .ok db ∧ getOffers H order off now db c = .ok ([o'], true) ∧ o'.cids = [c] ∧
      some o'.merkleRoot = Merkle.rootHex H [c] ∧ o'.signature = o.signature := by
  obtain ⟨⟨p, hp, hpp⟩, hcs, _⟩ := ho.1
  have hcp : Proper c := hcs c (by simp [hc])
  obtain ⟨root, hroot⟩ : ∃ r, Merkle.rootHex H [c] = some r := by
    cases h : Merkle.rootHex H [c] with
    | none => exact absurd ((Merkle.C12_root_exists H [c]).1.1 h) (by simp)
    | some r => exact ⟨r, rfl⟩
  refine ⟨⟨[rowOf H512 o], [⟨Ids.toStr c, 0, dhex H512 o⟩]⟩,
    { providerID := some p, cids := [c], price := o.price, expiry := o.expiry, qos := o.qos, merkleRoot := root, signature := o.signature }, ?_, ?_, rfl, ?_, rfl⟩
  · rw [interrupted_eq ho.1]
    simp only [contentRows, hc, List.zipIdx_cons, List.map_cons, List.take_succ_cons, List.take_zero]
    rfl
  · have hu : unexpired off now (rowOf H512 o).expiry = true := by
      rw [show (rowOf H512 o).expiry = o.expiry from rfl, unexpired_iff _ _ _ h0]
      exact ⟨hnow, hex⟩
    have ho1 : order [rowOf H512 o] = [rowOf H512 o] := List.perm_singleton.1 (hord _)
    unfold getOffers selectSingle
    simp only [List.flatMap_cons, List.flatMap_nil, List.append_nil, hu, if_true]
    rw [List.filter_cons_of_pos (by simp [rowOf, offerRow]), List.filter_nil, List.map_cons, List.map_nil, ho1]
    have hcon : contentOf ⟨[rowOf H512 o], [⟨Ids.toStr c, 0, dhex H512 o⟩]⟩ (rowOf H512 o).digest = Ids.mapToString [c] := by
      unfold contentOf
      simp only
      rw [List.filter_cons_of_pos (by simp [rowOf, offerRow]), List.filter_nil, List.mergeSort_singleton]
      rfl
    have hpr : Ids.fromHex (rowOf H512 o).provider = some p := by
      have : (rowOf H512 o).provider = Ids.toStr p := by simp [rowOf, offerRow, hp]
      rw [this]
      exact Ids.fromHex_toStr hpp
    have hids : Ids.mapFromString (Ids.mapToString [c]) = some [c] := Offer.mapFromString_mapToString _ (by simpa using hcp)
    unfold selectGo rebuild
    simp only [hcon, hids, hpr, Offer.newOffer, List.length_singleton, hroot]
    rfl
  · rw [hroot]

/-- **C88 is false**: when the database fails to store one content of an offer that is not the last, the add reports success
and the content is not found. -/
theorem C88_lost_content_refuted (hord : ∀ l, (order l).Perm l) (o : CidOffer) (c c' : Id) (ho : Built H o) (hp : o.price < 2 ^ 63)
    (hq : o.qos < 2 ^ 63) (hc : o.cids = [c, c']) (hne : c ≠ c') (off now : Int) :
    ∃ db, addGroup H512 (fun n => n == 1) newDB o = .ok (db, true) ∧ getOffers H order off now db c = .ok ([], false) := by
  have hcp : Proper c := ho.1.2.1 c (by simp [hc])
  have hcp' : Proper c' := ho.1.2.1 c' (by simp [hc])
  obtain ⟨d, hd, _⟩ := OfferMgr.digest_ok H512 ho.1
  obtain ⟨p, hpp, _⟩ := ho.1.1
  refine ⟨⟨[rowOf H512 o], [⟨Ids.toStr c', 1, dhex H512 o⟩]⟩, ?_, ?_⟩
  · unfold addGroup insertOffer
    have hb : bindable o = true := by simp [bindable, hp, hq]
    simp only [hd, Res.bind_ok, hpp, hb, contentRows, hc, rowOf, Option.getD_some, dhex_eq hd]
    rfl
  · unfold getOffers selectSingle
    have : order [] = [] := (hord []).eq_nil
    simp only [List.flatMap_cons, List.flatMap_nil, List.append_nil]
    rw [List.filter_cons_of_neg, List.filter_nil]
    · simp [this, selectGo]
    · simp only [decide_eq_true_eq]
      rintro ⟨_, e⟩
      exact hne ((OfferMgr.toStr_inj hcp hcp').1 e.symm)

/-! ## the hypotheses are met -/

/-- Two adds of different offers and a repeated one. -/
def exAdds : List (Kind × CidOffer) :=
  [(.group, Offer.exOffer), (.dht, { Offer.exOffer with price := 6 }), (.dht, Offer.exOffer)]

theorem exOffer6_built : Built Merkle.toyHash { Offer.exOffer with price := 6 } := by
  obtain ⟨⟨h1, h2, _, h4, h5, h6⟩, h7, h8⟩ := Offer.exOffer_built
  exact ⟨⟨h1, h2, by simp, h4, h5, h6⟩, h7, h8⟩

theorem exAdds_sane : Sane Merkle.toyHash (fun b => b) (exAdds.map (·.2)) := by
  refine ⟨?_, ?_⟩
  · intro o ho
    simp [exAdds] at ho
    rcases ho with rfl | rfl | rfl
    · exact Offer.exOffer_built
    · exact exOffer6_built
    · exact Offer.exOffer_built
  · intro x _ y _ b b' _ _ e
    exact e

/-- Two of the three are stored; both are found before the expiry. -/
example : ∃ db oks l, run (fun b => b) newDB exAdds = .ok (db, oks) ∧
    getOffers Merkle.toyHash (fun l => l) 0 1000 db (Merkle.exId 2) = .ok (l, !l.isEmpty) ∧
    l.Perm [Offer.exOffer, { Offer.exOffer with price := 6 }] := by
  obtain ⟨db, oks, l, h1, h2, h3⟩ := C26_by_cid_partial Merkle.toyHash (fun b => b) (fun l => l) (fun l => List.Perm.refl l) exAdds exAdds_sane
    (Merkle.exId 2) (Merkle.exId_proper 2) 1000 (by omega) (by
      intro o ho
      simp [exAdds] at ho
      rcases ho with rfl | rfl | rfl <;> exact ⟨by decide, by decide⟩)
  refine ⟨db, oks, l, h1, h2, h3.trans (List.Perm.of_eq ?_)⟩
  decide +kernel
/-- Three hours east of Greenwich the offer is listed two hours after its expiry. -/
example : ∃ db, run (fun b => b) newDB [(.dht, { Offer.exOffer with cids := [Merkle.exId 1], merkleRoot := (Merkle.rootHex Merkle.toyHash [Merkle.exId 1]).getD [] })] = .ok (db, [true]) ∧
    getOffers Merkle.toyHash (fun l => l) 10800 1700007200 db (Merkle.exId 1) =
      .ok ([{ Offer.exOffer with cids := [Merkle.exId 1], merkleRoot := (Merkle.rootHex Merkle.toyHash [Merkle.exId 1]).getD [] }], true) := by
  obtain ⟨db, h1, h2, _⟩ := C26_time_zone_refuted Merkle.toyHash (fun b => b) (fun l => l) (fun l => List.Perm.refl l)
    { Offer.exOffer with cids := [Merkle.exId 1], merkleRoot := (Merkle.rootHex Merkle.toyHash [Merkle.exId 1]).getD [] } (Merkle.exId 1)
    (by
      obtain ⟨⟨h1, h2, h3, h4, h5, h6⟩, h7, h8⟩ := Offer.exOffer_built
      refine ⟨⟨h1, ?_, h3, h4, h5, h6⟩, by simp, by decide +kernel⟩
      intro c hc
      simp at hc
      rw [hc]; exact Merkle.exId_proper 1) (by decide) (by decide) rfl (by decide) 10800 1700007200 (by decide)
  exact ⟨db, h1, h2 (by decide) (by decide)⟩
/-- The group offer is listed as a DHT offer. -/
example : ∃ db, run (fun b => b) newDB [(.group, Offer.exOffer)] = .ok (db, [true]) ∧
    getDhtRange Merkle.toyHash (fun l => l) 0 1000 db (Merkle.exId 2) (Merkle.exId 2) 10 = .ok ([Offer.exOffer], true) := by
  obtain ⟨db, h1, _, _, h2⟩ := C87_kinds_refuted Merkle.toyHash (fun b => b) (fun l => l) (fun l => List.Perm.refl l) .group Offer.exOffer
    (Merkle.exId 2) Offer.exOffer_built (by decide) (by decide) (by decide) (by decide) 1000 (by decide) (by decide) (by decide)
  exact ⟨db, h1, h2⟩
/-- The offer of two contents interrupted after two statements is listed with one. -/
example : ∃ db o', interrupted (fun b => b) 2 newDB Offer.exOffer = .ok db ∧
    getOffers Merkle.toyHash (fun l => l) 0 1000 db (Merkle.exId 1) = .ok ([o'], true) ∧ o'.cids = [Merkle.exId 1] := by
  obtain ⟨db, o', h1, h2, h3, _⟩ := C88_truncated_refuted Merkle.toyHash (fun b => b) (fun l => l) (fun l => List.Perm.refl l) Offer.exOffer
    (Merkle.exId 1) (Merkle.exId 2) [] Offer.exOffer_built rfl 0 1000 (by decide) (by decide) (by decide)
  exact ⟨db, o', h1, h2, h3⟩
/-- Adding it again after the interruption. -/
example : ∃ db oks db1 db2, run (fun b => b) newDB exAdds = .ok (db, oks) ∧
    interrupted (fun b => b) 2 db { Offer.exOffer with price := 6 } = .ok db1 ∧
    run (fun b => b) db1 [(.dht, { Offer.exOffer with price := 6 })] = .ok (db2, [true]) := by
  obtain ⟨db, oks, db1, db2, h1, h2, h3⟩ := C88_repeated_add_completes_partial Merkle.toyHash (fun b => b) exAdds .dht { Offer.exOffer with price := 6 } 2 (by
    refine ⟨?_, fun x _ y _ b b' _ _ e => e⟩
    intro o ho
    rcases List.mem_append.1 ho with ho | ho
    · exact exAdds_sane.1 o ho
    · simp at ho; rw [ho]; exact exOffer6_built)
  exact ⟨db, oks, db1, db2, h1, h2, (h3 (by decide) (by decide)).1⟩

end FcRetrieval.SqlOffer
