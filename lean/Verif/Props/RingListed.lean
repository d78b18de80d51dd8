import Verif.Model.RingListed
import Verif.Spec.RingListed
import Verif.Props.RingMany
/-!
# C177: offers published and listed at the same time

`C177_listed_partial`: any number of publications and of listings between contents on offer, in any order of their parts.
-/
set_option linter.unusedSimpArgs false
namespace FcRetrieval.RingShared
open FcRetrieval.Ids (Id Proper position)
open FcRetrieval.Merkle (Hash)
open FcRetrieval.Offer (CidOffer InRange)
open FcRetrieval.OfferMgr
open FcRetrieval.Ring (Ring Hex IsRingAt validateInput)

theorem begin_stored {r : Ring} {as : List Nat} {l : List Hex} {x y : Hex} (hr : IsRingAt r as l) (hx : validateInput x = true) (hy : validateInput y = true)
    {s t : Nat} (hs : s ∈ as) (hsv : (r.heap s).val = x) (ht : t ∈ as) (htv : (r.heap t).val = y) : listBegin r x y = .ok (r, some ⟨s, true, t, true⟩) := by
  unfold listBegin
  rw [if_neg (by simp [hx, hy])]
  simp only [ensure_stored hr hx hs hsv, ensure_stored hr hy ht htv, bind, Except.bind, pure, Except.pure]

theorem end_stored (r : Ring) (x y : Hex) (s t : Nat) : listEnd r x y ⟨s, true, t, true⟩ = .ok r := by
  simp [listEnd, Ring.dropTemp, bind, Except.bind]

theorem walk_stored {r : Ring} {as : List Nat} {l : List Hex} {off : List Id} {a b : Id} (hr : IsRingAt r as l) (hm : ∀ x, x ∈ l ↔ x ∈ off.map Ids.toStr)
    (hp : ∀ d ∈ off, Proper d) (ha : Proper a) (hb : Proper b) (hab : a ≠ b)
    {s t : Nat} (hs : s ∈ as) (hsv : (r.heap s).val = Ids.toStr a) (ht : t ∈ as) (htv : (r.heap t).val = Ids.toStr b) :
    ∃ es, listWalk r (Ids.toStr a) (Ids.toStr b) ⟨s, true, t, true⟩ (r.cap + 1) = .ok (es.map Ids.toStr) ∧ IsArc off a b es := by
  have hx := validate_toStr ha
  have hy := validate_toStr hb
  obtain ⟨r', es, k1, _, k3, _⟩ := ringInv_range (r := r) (offered := off) ⟨hp, l, ⟨as, hr⟩, hm⟩ ha hb hab
  refine ⟨es, ?_, k3⟩
  unfold Ring.getWithinRange at k1
  rw [if_neg (by simp [hx, hy])] at k1
  simp only [ensure_stored hr hx hs hsv, ensure_stored hr hy ht htv, bind, Except.bind, pure, Except.pure] at k1
  unfold listWalk
  simp only [bind, Except.bind, pure, Except.pure]
  cases hl : Ring.rangeLoop r.heap (r.heap t).val (r.cap + 1) (r.heap s).next with
  | error f => rw [hl] at k1; cases k1
  | ok mid =>
    rw [hl] at k1
    simp only [Ring.dropTemp, if_true, Except.ok.injEq, Prod.mk.injEq, Ring.Ret.val.injEq] at k1
    simp only [if_true, k1.2]

/-- What a listing may answer: the contents of its range among some that hold all of `base`, and nothing but what was on offer or is being published. -/
def Fine (calls : List Call) (offered : List Id) (base : List Id) (q : Query) (res : List Hex) : Prop :=
  ∃ off es, res = es.map Ids.toStr ∧ IsArc off q.lo q.hi es ∧ (∀ d ∈ base, d ∈ off) ∧ ∀ d ∈ off, d ∈ offered ∨ ∃ k ∈ calls, d = k.cid

/-- What is known of a listing in progress. -/
def LookOk (calls : List Call) (offered : List Id) (r : Ring) (as : List Nat) (l : List Hex) (base : List Id) (q : Query) : LStage → Prop
  | .begun => ∀ d ∈ base, Ids.toStr d ∈ l
  | .walking L => (∃ s t, L = ⟨s, true, t, true⟩ ∧ s ∈ as ∧ (r.heap s).val = Ids.toStr q.lo ∧ t ∈ as ∧ (r.heap t).val = Ids.toStr q.hi) ∧ ∀ d ∈ base, Ids.toStr d ∈ l
  | .ending L res => (∃ s t, L = ⟨s, true, t, true⟩) ∧ Fine calls offered base q res
  | .answered res => Fine calls offered base q res
  | .refused => False

theorem look_keeps {calls : List Call} {offered : List Id} {r r' : Ring} {as as' : List Nat} {l l' : List Hex} {base : List Id} {q : Query} {st : LStage}
    (hr : IsRingAt r as l) (hr' : IsRingAt r' as' l') (hk : ∀ a ∈ as, a ∈ as' ∧ (r'.heap a).val = (r.heap a).val) (h : LookOk calls offered r as l base q st) :
    LookOk calls offered r' as' l' base q st := by
  have hl : ∀ x ∈ l, x ∈ l' := by
    intro x hx
    rw [← hr.vals] at hx
    obtain ⟨a, ha, rfl⟩ := List.mem_map.mp hx
    rw [← hr'.vals, ← (hk a ha).2]
    exact List.mem_map.mpr ⟨a, (hk a ha).1, rfl⟩
  cases st with
  | begun => exact fun d hd => hl _ (h d hd)
  | walking L =>
    obtain ⟨⟨s, t, h1, h2, h3, h4, h5⟩, h6⟩ := h
    exact ⟨⟨s, t, h1, (hk s h2).1, by rw [(hk s h2).2]; exact h3, (hk t h4).1, by rw [(hk t h4).2]; exact h5⟩, fun d hd => hl _ (h6 d hd)⟩
  | ending L res => exact h
  | answered res => exact h
  | refused => exact h

/-- The contents on the ring. -/
def onRing (calls : List Call) (offered : List Id) (w : World) : List Id :=
  offered ++ (List.range calls.length).filterMap (fun i => if isIn (w.stage i) then (calls[i]?).map (·.cid) else none)

theorem mem_onRing {calls : List Call} {offered : List Id} {w : World} {d : Id} :
    d ∈ onRing calls offered w ↔ d ∈ offered ∨ ∃ (i : Nat) (k : Call), calls[i]? = some k ∧ isIn (w.stage i) = true ∧ d = k.cid := by
  unfold onRing
  rw [List.mem_append, List.mem_filterMap]
  refine or_congr_right ⟨?_, ?_⟩
  · rintro ⟨i, hi, h⟩
    split at h
    · rename_i hin
      obtain ⟨k, hk, rfl⟩ := Option.map_eq_some_iff.mp h
      exact ⟨i, k, hk, hin, rfl⟩
    · cases h
  · rintro ⟨i, k, hk, hin, rfl⟩
    exact ⟨i, List.mem_range.mpr (List.getElem?_eq_some_iff.mp hk).1, by rw [if_pos hin, hk]; rfl⟩

theorem vals_onRing {calls : List Call} {offered : List Id} {w : World} {as : List Nat} {l : List Hex} (hr : RingOk calls offered w as l) (x : Hex) :
    x ∈ l ↔ x ∈ (onRing calls offered w).map Ids.toStr := by
  rw [hr.vals]
  constructor
  · rintro (h | ⟨i, k, hk, hin, rfl⟩)
    · obtain ⟨d, hd, rfl⟩ := List.mem_map.mp h
      exact List.mem_map.mpr ⟨d, mem_onRing.2 (.inl hd), rfl⟩
    · exact List.mem_map.mpr ⟨k.cid, mem_onRing.2 (.inr ⟨i, k, hk, hin, rfl⟩), rfl⟩
  · intro h
    obtain ⟨d, hd, rfl⟩ := List.mem_map.mp h
    rcases mem_onRing.1 hd with h | ⟨i, k, hk, hin, rfl⟩
    · exact .inl (List.mem_map.mpr ⟨d, h, rfl⟩)
    · exact .inr ⟨i, k, hk, hin, rfl⟩

theorem proper_onRing {calls : List Call} {offered : List Id} (hsp : Spread calls offered) {w : World} : ∀ d ∈ onRing calls offered w, Proper d := by
  intro d hd
  rcases mem_onRing.1 hd with h | ⟨i, k, hk, _, rfl⟩
  · exact hsp.properO d h
  · exact hsp.proper k (List.mem_of_getElem? hk)

/-- A part of a listing. -/
theorem lookTick_keeps {calls : List Call} {offered : List Id} (hsp : Spread calls offered) {qs : List Query}
    (hq : ∀ q ∈ qs, q.lo ∈ offered ∧ q.hi ∈ offered ∧ q.lo ≠ q.hi) {b : Both} {as : List Nat} {l : List Hex} (hr : RingOk calls offered b.world as l)
    {base : Nat → List Id} (hbp : ∀ j, ∀ d ∈ base j, Proper d)
    (hl : ∀ (j : Nat) (q : Query), qs[j]? = some q → LookOk calls offered b.world.mgr.ring as l (base j) q (b.look j)) (j : Nat) :
    ∃ look', lookTick qs b j = .ok ⟨b.world, look'⟩ ∧ ∀ (i : Nat) (q : Query), qs[i]? = some q → LookOk calls offered b.world.mgr.ring as l (base i) q (look' i) := by
  unfold lookTick
  cases hqj : qs[j]? with
  | none => exact ⟨b.look, rfl, hl⟩
  | some q =>
    have others : ∀ st, LookOk calls offered b.world.mgr.ring as l (base j) q st → ∀ (i : Nat) (q : Query), qs[i]? = some q →
        LookOk calls offered b.world.mgr.ring as l (base i) q (if i = j then st else b.look i) := by
      intro st h i q' hq'
      by_cases hij : i = j
      · subst hij
        rw [hqj] at hq'
        cases hq'
        rw [if_pos rfl]
        exact h
      · rw [if_neg hij]
        exact hl i q' hq'
    have hj := hl j q hqj
    obtain ⟨hlo, hhi, hne⟩ := hq q (List.mem_of_getElem? hqj)
    have hplo := hsp.properO _ hlo
    have hphi := hsp.properO _ hhi
    dsimp only
    cases hst : b.look j with
    | begun =>
      rw [hst] at hj
      have hmem : ∀ d ∈ offered, ∃ n ∈ as, (b.world.mgr.ring.heap n).val = Ids.toStr d := by
        intro d hd
        have : Ids.toStr d ∈ l := (hr.vals _).2 (.inl (List.mem_map.mpr ⟨d, hd, rfl⟩))
        rw [← hr.ring.vals] at this
        exact List.mem_map.mp this
      obtain ⟨s, hs, hsv⟩ := hmem _ hlo
      obtain ⟨t, ht, htv⟩ := hmem _ hhi
      simp only [begin_stored hr.ring (validate_toStr hplo) (validate_toStr hphi) hs hsv ht htv, bind, Except.bind, pure, Except.pure]
      exact ⟨_, rfl, others _ ⟨⟨s, t, rfl, hs, hsv, ht, htv⟩, hj⟩⟩
    | walking L =>
      rw [hst] at hj
      obtain ⟨⟨s, t, rfl, hs, hsv, ht, htv⟩, hb⟩ := hj
      obtain ⟨es, k1, k2⟩ := walk_stored hr.ring (vals_onRing hr) (proper_onRing hsp) hplo hphi hne hs hsv ht htv
      simp only [k1, bind, Except.bind, pure, Except.pure]
      refine ⟨_, rfl, others _ ⟨⟨s, t, rfl⟩, _, es, rfl, k2, ?_, ?_⟩⟩
      · intro d hd
        obtain ⟨d', hd', he⟩ := List.mem_map.mp ((vals_onRing hr _).1 (hb d hd))
        rw [← (toStr_inj (proper_onRing hsp d' hd') (hbp j d hd)).1 he]
        exact hd'
      · intro d hd
        rcases mem_onRing.1 hd with h | ⟨i, k, hk, _, h⟩
        · exact .inl h
        · exact .inr ⟨k, List.mem_of_getElem? hk, h⟩
    | ending L res =>
      rw [hst] at hj
      obtain ⟨⟨s, t, rfl⟩, hb⟩ := hj
      simp only [end_stored, bind, Except.bind, pure, Except.pure]
      exact ⟨_, rfl, others _ hb⟩
    | answered res => exact ⟨b.look, rfl, hl⟩
    | refused => exact ⟨b.look, rfl, hl⟩

theorem playBoth_keeps {H512 : Hash} {A : List CidOffer} {calls : List Call} {offered : List Id} (hA : NoCollision H512 A) (hf : Fresh A calls) (hsp : Spread calls offered)
    {qs : List Query} (hq : ∀ q ∈ qs, q.lo ∈ offered ∧ q.hi ∈ offered ∧ q.lo ≠ q.hi) {base : Nat → List Id} (hbp : ∀ j, ∀ d ∈ base j, Proper d) {s : Shelf} :
    ∀ (sch : List (Nat ⊕ Nat)) {b : Both} {as : List Nat} {l : List Hex}, RingOk calls offered b.world as l → ∀ {ord : List Nat} {s' : Shelf}, StoreOk H512 A calls s b.world ord s' →
      (∀ (j : Nat) (q : Query), qs[j]? = some q → LookOk calls offered b.world.mgr.ring as l (base j) q (b.look j)) →
      ∃ b' as' l' ord' s'', playBoth H512 calls qs b sch = .ok b' ∧ play H512 calls b.world (publishing sch) = .ok b'.world ∧ RingOk calls offered b'.world as' l' ∧
        StoreOk H512 A calls s b'.world ord' s'' ∧ ∀ (j : Nat) (q : Query), qs[j]? = some q → LookOk calls offered b'.world.mgr.ring as' l' (base j) q (b'.look j)
  | [], b, as, l, hr, ord, s', hs, hl => ⟨b, as, l, ord, s', rfl, rfl, hr, hs, hl⟩
  | .inl i :: sch, b, as, l, hr, ord, s', hs, hl => by
    obtain ⟨w1, ord1, s1, e1, e2⟩ := tick_store hA hf (looks hsp hr) hs i
    obtain ⟨as1, l1, e3, e4⟩ := tick_ring hsp hr e1
    obtain ⟨b2, as2, l2, ord2, s2, f1, f2, f3⟩ := playBoth_keeps hA hf hsp hq hbp sch (b := ⟨w1, b.look⟩) e3 e2
      (fun j q hj => look_keeps hr.ring e3.ring e4 (hl j q hj))
    refine ⟨b2, as2, l2, ord2, s2, by simp only [playBoth, e1, bind, Except.bind, f1], ?_, f3⟩
    show play H512 calls b.world (i :: publishing sch) = _
    simp only [play, e1, bind, Except.bind]
    exact f2
  | .inr j :: sch, b, as, l, hr, ord, s', hs, hl => by
    obtain ⟨look', e1, e2⟩ := lookTick_keeps hsp hq hr hbp hl j
    obtain ⟨b2, as2, l2, ord2, s2, f1, f2, f3⟩ := playBoth_keeps hA hf hsp hq hbp sch (b := ⟨b.world, look'⟩) hr hs e2
    exact ⟨b2, as2, l2, ord2, s2, by simp only [playBoth, e1, bind, Except.bind, f1], f2, f3⟩

theorem publishing_append (sch1 sch2 : List (Nat ⊕ Nat)) : publishing (sch1 ++ sch2) = publishing sch1 ++ publishing sch2 := List.filterMap_append

theorem play_append {H512 : Hash} {calls : List Call} {w' : World} : ∀ (sch1 sch2 : List Nat) {w : World}, play H512 calls w sch1 = .ok w' →
    play H512 calls w (sch1 ++ sch2) = play H512 calls w' sch2
  | [], _, _, h => by cases h; rfl
  | i :: sch1, sch2, w, h => by
    simp only [List.cons_append, play, bind, Except.bind] at h ⊢
    cases ht : tick H512 calls w i with
    | error f => rw [ht] at h; cases h
    | ok w1 =>
      rw [ht] at h
      exact play_append sch1 sch2 h

/-- **C177 (partial).** Any number of requests publish, as in `C177_many_partial`, and any number of requests list, each from a content on offer to another, all at the same
time: their parts come in any order.  No request crashes or goes on for ever, and the publications come to what they would have come to without the listings
(`C177_many_partial` tells what that is).  Every listing that has ended has answered the contents of its range in clockwise order, each once, among contents that hold
all that were on offer at first and all whose publication was answered before the listing began, and none but those and the ones being published.  What is missing:
publications with none on offer between them (`C177_lost_refuted`), and listings from or to a content that is not on offer (`C177_endless_refuted`,
`C177_bound_refuted`). -/
theorem C177_listed_partial {H512 : Hash} {order : DigestMap CidOffer → DigestMap CidOffer} {orderE : Storage CidOffer → Storage CidOffer}
    (hord : ∀ dm, (order dm).Perm dm) (hordE : ∀ st, (orderE st).Perm st) (h : List (Clock × Op)) (calls : List Call) (qs : List Query)
    (hcid : ∀ k ∈ calls, k.offer.cids = [k.cid] ∧ expired k.offer k.time = false ∧ k.cid ∉ dhtCids h ∧
      (∃ d ∈ dhtCids h, position d < position k.cid) ∧ ∃ d ∈ dhtCids h, position k.cid < position d)
    (hsep : calls.Pairwise (fun k k' => ∃ d ∈ dhtCids h, (position k.cid < position d ∧ position d < position k'.cid) ∨
      (position k'.cid < position d ∧ position d < position k.cid)))
    (hq : ∀ q ∈ qs, q.lo ∈ dhtCids h ∧ q.hi ∈ dhtCids h ∧ q.lo ≠ q.hi)
    (hh : SaneHistory H512 (h ++ calls.map (fun k => (k.time, .addDht k.offer)))) (hs : AllSafe [] h) (sch1 sch2 : List (Nat ⊕ Nat)) :
    ∃ m outs b1 b2, execAll H512 order orderE newMgr h = .ok (m, outs) ∧
      playBoth H512 calls qs ⟨⟨m, fun _ => .begun⟩, fun _ => .begun⟩ sch1 = .ok b1 ∧ playBoth H512 calls qs b1 sch2 = .ok b2 ∧
      play H512 calls ⟨m, fun _ => .begun⟩ (publishing (sch1 ++ sch2)) = .ok b2.world ∧
      ∀ (j : Nat) (q : Query), qs[j]? = some q → b2.look j ≠ .refused ∧ ∀ res, b2.look j = .answered res →
        ∃ off es, res = es.map Ids.toStr ∧ IsArc off q.lo q.hi es ∧ (∀ d ∈ dhtCids h, d ∈ off) ∧
          (b1.look j = .begun → ∀ (i : Nat) (k : Call) (ok : Bool), calls[i]? = some k → b1.world.stage i = .done ok → k.cid ∈ off) ∧
          ∀ d ∈ off, d ∈ dhtCids h ∨ ∃ k ∈ calls, d = k.cid := by
  have hkA : ∀ k ∈ calls, k.offer ∈ allAdded (h ++ calls.map (fun k => (k.time, .addDht k.offer))) := fun k hk =>
    List.mem_flatMap.2 ⟨(k.time, .addDht k.offer), List.mem_append_right _ (List.mem_map.mpr ⟨k, hk, rfl⟩), by simp [added]⟩
  have hsub : ∀ e ∈ h, ∀ p ∈ added e.2, p ∈ allAdded (h ++ calls.map (fun k => (k.time, .addDht k.offer))) ∧ InRange p := by
    intro e hem p hp
    have : p ∈ allAdded (h ++ calls.map (fun k => (k.time, .addDht k.offer))) := List.mem_flatMap.2 ⟨e, List.mem_append_left _ hem, hp⟩
    exact ⟨this, hh.1 p this⟩
  have hpc : ∀ k ∈ calls, Proper k.cid := fun k hk => (hh.1 _ (hkA k hk)).2.1 k.cid (by rw [(hcid k hk).1]; simp)
  obtain ⟨m, outs, s, e1, e2, e3, e4⟩ := steps_strict (order := order) (orderE := orderE) hord hordE hh.2.2 h (sinv_new _) ringInv_new hsub
    (fun e hem => hh.2.1 e (List.mem_append_left _ hem)) hs
  have hoff : ∀ d, d ∈ s.offered ↔ d ∈ dhtCids h := by
    intro d
    rw [offered_steps h e2 d]
    simp [noOffers]
  have hsp : Spread calls s.offered := by
    refine ⟨hpc, e4.1, fun k hk => ?_, fun k hk => ?_, fun k hk => ?_, ?_⟩
    · rw [hoff]
      exact (hcid k hk).2.2.1
    · obtain ⟨d, hd, hlt⟩ := (hcid k hk).2.2.2.1
      exact ⟨d, (hoff d).2 hd, hlt⟩
    · obtain ⟨d, hd, hlt⟩ := (hcid k hk).2.2.2.2
      exact ⟨d, (hoff d).2 hd, hlt⟩
    · intro i j k k' hij hi hj
      rw [List.pairwise_iff_getElem] at hsep
      obtain ⟨hi1, hi2⟩ := List.getElem?_eq_some_iff.mp hi
      obtain ⟨hj1, hj2⟩ := List.getElem?_eq_some_iff.mp hj
      rcases Nat.lt_or_gt_of_ne hij with hlt | hlt
      · obtain ⟨d, hd, hb⟩ := hsep i j hi1 hj1 hlt
        rw [hi2, hj2] at hb
        exact ⟨d, (hoff d).2 hd, hb⟩
      · obtain ⟨d, hd, hb⟩ := hsep j i hj1 hi1 hlt
        rw [hi2, hj2] at hb
        exact ⟨d, (hoff d).2 hd, hb.symm⟩
  have hf : Fresh (allAdded (h ++ calls.map (fun k => (k.time, .addDht k.offer)))) calls :=
    fun k hk => ⟨(hcid k hk).1, (hcid k hk).2.1, hkA k hk, hh.1 _ (hkA k hk)⟩
  obtain ⟨hprop, l, ⟨as, hl⟩, hm⟩ := e4
  have hr0 : RingOk calls s.offered ⟨m, fun _ => .begun⟩ as l := by
    refine ⟨hl, fun y => ?_, fun i k q _ hq => by simp at hq, fun i j k k' p p' _ _ _ hq _ => by simp at hq⟩
    rw [hm]
    simp [isIn]
  have hs0 : StoreOk H512 (allAdded (h ++ calls.map (fun k => (k.time, .addDht k.offer)))) calls s ⟨m, fun _ => .begun⟩ [] s :=
    ⟨List.nodup_nil, by simp, by simp, ⟨rfl, rfl⟩, e3⟩
  have hq' : ∀ q ∈ qs, q.lo ∈ s.offered ∧ q.hi ∈ s.offered ∧ q.lo ≠ q.hi := fun q hqm =>
    ⟨(hoff _).2 (hq q hqm).1, (hoff _).2 (hq q hqm).2.1, (hq q hqm).2.2⟩
  obtain ⟨b1, as1, l1, ord1, s1, f1, f2, f3, f4, f5⟩ := playBoth_keeps hh.2.2 hf hsp hq' (base := fun _ => s.offered) (fun _ d hd => hprop d hd) sch1
    (b := ⟨⟨m, fun _ => .begun⟩, fun _ => .begun⟩) hr0 hs0 (fun j q _ d hd => (hm _).2 (List.mem_map.mpr ⟨d, hd, rfl⟩))
  -- a listing that has not begun will find what is on the ring now
  obtain ⟨b2, as2, l2, ord2, s2, g1, g2, g3, g4, g5⟩ := playBoth_keeps hh.2.2 hf hsp hq'
    (base := fun j => match b1.look j with | .begun => onRing calls s.offered b1.world | _ => s.offered) (fun j d hd => by
      split at hd
      · exact proper_onRing hsp d hd
      · exact hprop d hd) sch2 (b := b1) f3 f4 (fun j q hj => by
      have hj5 := f5 j q hj
      cases hst : b1.look j with
      | begun => exact fun d hd => (vals_onRing f3 _).2 (List.mem_map.mpr ⟨d, hd, rfl⟩)
      | _ => rw [hst] at hj5; exact hj5)
  refine ⟨m, outs, b1, b2, e1, f1, g1, ?_, ?_⟩
  · rw [publishing_append, play_append _ _ f2]
    exact g2
  · intro j q hj
    have hj5 := g5 j q hj
    refine ⟨fun hst => ?_, fun res hres => ?_⟩
    · rw [hst] at hj5
      exact hj5
    · rw [hres] at hj5
      obtain ⟨off, es, k1, k2, k3, k4⟩ := hj5
      refine ⟨off, es, k1, k2, fun d hd => k3 d ?_, fun hb i k ok hk hst => k3 k.cid ?_, fun d hd => ?_⟩
      · split
        · exact mem_onRing.2 (.inl ((hoff d).2 hd))
        · exact (hoff d).2 hd
      · rw [hb]
        exact mem_onRing.2 (.inr ⟨i, k, hk, by rw [hst]; rfl, rfl⟩)
      · rcases k4 d hd with h | h
        · exact .inl ((hoff d).1 h)
        · exact .inr h

/-- Contents 3, 7 and 10 are published; meanwhile 2 to 9 and 12 to 5 are listed. -/
example (sch1 sch2 : List (Nat ⊕ Nat)) := C177_listed_partial (H512 := fun x => x) (order := fun l => l) (orderE := fun l => l) (fun _ => .refl _) (fun _ => .refl _) exH4 exCalls
  [⟨Merkle.exId 2, Merkle.exId 9⟩, ⟨Merkle.exId 12, Merkle.exId 5⟩] exCalls_new exCalls_apart (by rw [exH4_cids]; decide +kernel) exH4_sane exH4_safe sch1 sch2

/-- Content 7 is published between the first and the second part of the first listing: it is in the answer. -/
example : (execAll (fun x => x) (fun l => l) (fun l => l) newMgr exH4).toOption.any (fun e =>
    (playBoth (fun x => x) exCalls [⟨Merkle.exId 2, Merkle.exId 9⟩, ⟨Merkle.exId 12, Merkle.exId 5⟩] ⟨⟨e.1, fun _ => .begun⟩, fun _ => .begun⟩
      [.inr 0, .inl 0, .inl 2, .inl 2, .inr 1, .inl 2, .inr 0, .inl 0, .inr 0, .inr 1, .inr 1]).toOption.any (fun b =>
        (match b.look 0 with | .answered res => decide (res = [2, 5, 7, 9].map (fun n => Ids.toStr (Merkle.exId n))) | _ => false) &&
        (match b.look 1 with | .answered res => decide (res = [12, 2, 3, 5].map (fun n => Ids.toStr (Merkle.exId n))) | _ => false))) = true := by decide +kernel

end FcRetrieval.RingShared
