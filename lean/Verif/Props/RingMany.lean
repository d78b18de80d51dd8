import Verif.Lemmas.RingMany
import Verif.Props.RingShared
/-!
# C177: any number of offers published at the same time

`C177_many_partial`: requests to publish, any number of them, go on in any order of their parts.  If between any two of the CIDs there is one on offer already,
nothing is lost.  The next is what the calls in progress keep true.
-/
set_option linter.unusedSimpArgs false
namespace FcRetrieval.RingShared
open FcRetrieval.Ids (Id Proper position)
open FcRetrieval.Merkle (Hash)
open FcRetrieval.Offer (CidOffer terms InRange)
open FcRetrieval.OfferMgr
open FcRetrieval.Ring (allocNode Ring Hex Fault IsRingAt IsRing keyOf validateInput)

/-- The call has written to the ring. -/
def isIn : Stage → Bool
  | .linked => true
  | .done _ => true
  | _ => false

/-- The CIDs that are published at the same time, among those on offer. -/
structure Spread (calls : List Call) (offered : List Id) : Prop where
  proper : ∀ k ∈ calls, Proper k.cid
  properO : ∀ d ∈ offered, Proper d
  new : ∀ k ∈ calls, k.cid ∉ offered
  low : ∀ k ∈ calls, ∃ d ∈ offered, position d < position k.cid
  high : ∀ k ∈ calls, ∃ d ∈ offered, position k.cid < position d
  sep : ∀ (i j : Nat) k k', i ≠ j → calls[i]? = some k → calls[j]? = some k' →
    ∃ d ∈ offered, (position k.cid < position d ∧ position d < position k'.cid) ∨ (position k'.cid < position d ∧ position d < position k.cid)

/-- The ring while calls are in progress. -/
structure RingOk (calls : List Call) (offered : List Id) (w : World) (as : List Nat) (l : List Hex) : Prop where
  ring : IsRingAt w.mgr.ring as l
  vals : ∀ y, y ∈ l ↔ y ∈ offered.map Ids.toStr ∨ ∃ i k, calls[i]? = some k ∧ isIn (w.stage i) = true ∧ y = Ids.toStr k.cid
  gaps : ∀ (i : Nat) k q, calls[i]? = some k → w.stage i = .found q → ∃ p, q = some p ∧ Gap w.mgr.ring as p (Ids.toStr k.cid)
  nodes : ∀ (i j : Nat) k k' p p', i ≠ j → calls[i]? = some k → calls[j]? = some k' → w.stage i = .found (some p) → w.stage j = .found (some p') → p.node ≠ p'.node

/-- The calls as an entry of a history. -/
def entry (k : Call) : Clock × Op := (k.time, .addDht k.offer)

/-- The store while calls are in progress: `ord` are the calls that have stored, in order. -/
structure StoreOk (H512 : Hash) (A : List CidOffer) (calls : List Call) (s : Shelf) (w : World) (ord : List Nat) (s' : Shelf) : Prop where
  nodup : ord.Nodup
  mem : ∀ i, i ∈ ord ↔ i < calls.length ∧ w.stage i = .done true
  ok : ∀ i, i < calls.length → w.stage i ≠ .done false
  steps : Steps H512 true s ((ord.filterMap (calls[·]?)).map entry) ((ord.filterMap (calls[·]?)).map (fun _ => .done true)) s'
  inv : SInv H512 A w.mgr s'

theorem stored_node {r : Ring} {as : List Nat} {l : List Hex} (hl : IsRingAt r as l) {d : Id} (hp : Proper d) (hd : Ids.toStr d ∈ l) :
    ∃ n ∈ as, (r.heap n).key = position d := by
  rw [← hl.vals] at hd
  obtain ⟨n, hn, hv⟩ := List.mem_map.mp hd
  exact ⟨n, hn, by rw [hl.keys n hn, hv, keyOf_toStr hp]⟩

theorem begun_look {calls : List Call} {offered : List Id} (hsp : Spread calls offered) {w : World} {as : List Nat} {l : List Hex}
    (hr : RingOk calls offered w as l) {i : Nat} {k : Call} (hk : calls[i]? = some k) (hst : w.stage i = .begun) :
    ∃ p, insertLook w.mgr.ring (Ids.toStr k.cid) = .ok (allocNode w.mgr.ring (Ids.toStr k.cid), some p) ∧ p.node = w.mgr.ring.cap ∧
      Gap (allocNode w.mgr.ring (Ids.toStr k.cid)) as p (Ids.toStr k.cid) ∧ IsRingAt (allocNode w.mgr.ring (Ids.toStr k.cid)) as l := by
  have hkm : k ∈ calls := List.mem_of_getElem? hk
  have hpk := hsp.proper k hkm
  have hkey : keyOf (Ids.toStr k.cid) = position k.cid := keyOf_toStr hpk
  have hno : ∀ a ∈ as, (w.mgr.ring.heap a).key ≠ keyOf (Ids.toStr k.cid) := by
    intro a ha he
    have hv : (w.mgr.ring.heap a).val ∈ l := by rw [← hr.ring.vals]; exact List.mem_map.mpr ⟨a, ha, rfl⟩
    rw [hr.ring.keys a ha, hkey] at he
    rcases (hr.vals _).1 hv with h | ⟨j, k', hj, hin, hy⟩
    · obtain ⟨d, hd, hde⟩ := List.mem_map.mp h
      rw [← hde, keyOf_toStr (hsp.properO d hd)] at he
      exact hsp.new k hkm (position_inj (hsp.properO d hd) hpk he ▸ hd)
    · have hij : j ≠ i := by
        rintro rfl
        rw [hst] at hin
        cases hin
      rw [hy, keyOf_toStr (hsp.proper k' (List.mem_of_getElem? hj))] at he
      obtain ⟨d, _, hd⟩ := hsp.sep j i k' k hij hj hk
      omega
  obtain ⟨dl, hdl, hlow⟩ := hsp.low k hkm
  obtain ⟨dh, hdh, hhigh⟩ := hsp.high k hkm
  obtain ⟨nl, hnl, hkl⟩ := stored_node hr.ring (hsp.properO dl hdl) ((hr.vals _).2 (.inl (List.mem_map.mpr ⟨dl, hdl, rfl⟩)))
  obtain ⟨nh, hnh, hkh⟩ := stored_node hr.ring (hsp.properO dh hdh) ((hr.vals _).2 (.inl (List.mem_map.mpr ⟨dh, hdh, rfl⟩)))
  exact look_gap hr.ring (validate_toStr hpk) ⟨nl, hnl, by rw [hkl, hkey]; exact hlow⟩ ⟨nh, hnh, by rw [hkh, hkey]; exact hhigh⟩ hno

theorem looks {calls : List Call} {offered : List Id} (hsp : Spread calls offered) {w : World} {as : List Nat} {l : List Hex} (hr : RingOk calls offered w as l)
    (i : Nat) (k : Call) (hk : calls[i]? = some k) (hst : w.stage i = .begun) : ∃ e, insertLook w.mgr.ring (Ids.toStr k.cid) = .ok e := by
  obtain ⟨p, e1, _⟩ := begun_look hsp hr hk hst
  exact ⟨_, e1⟩

theorem tick_ring {H512 : Hash} {calls : List Call} {offered : List Id} (hsp : Spread calls offered) {w w' : World} {as : List Nat} {l : List Hex}
    (hr : RingOk calls offered w as l) {i : Nat} (ht : tick H512 calls w i = .ok w') : ∃ as' l', RingOk calls offered w' as' l' ∧ ∀ a ∈ as, a ∈ as' ∧ (w'.mgr.ring.heap a).val = (w.mgr.ring.heap a).val := by
  unfold tick at ht
  cases hk : calls[i]? with
  | none =>
    simp only [hk, Except.ok.injEq] at ht
    subst ht
    exact ⟨as, l, hr, fun a ha => ⟨ha, rfl⟩⟩
  | some k =>
    have hkm : k ∈ calls := List.mem_of_getElem? hk
    have hpk := hsp.proper k hkm
    have hkey : keyOf (Ids.toStr k.cid) = position k.cid := keyOf_toStr hpk
    simp only [hk] at ht
    cases hst : w.stage i with
    | begun =>
      obtain ⟨p, e1, e2, e3, e4⟩ := begun_look hsp hr hk hst
      simp only [hst, e1, bind, Except.bind, pure, Except.pure, Except.ok.injEq] at ht
      subst ht
      refine ⟨as, l, ⟨e4, ?_, ?_, ?_⟩, fun a ha => ⟨ha, ?_⟩⟩
      · intro y
        rw [hr.vals]
        refine or_congr_right ⟨?_, ?_⟩
        · rintro ⟨j, k', hj, hin, hy⟩
          refine ⟨j, k', hj, ?_, hy⟩
          have : j ≠ i := by
            rintro rfl
            rw [hst] at hin
            cases hin
          simpa [this] using hin
        · rintro ⟨j, k', hj, hin, hy⟩
          refine ⟨j, k', hj, ?_, hy⟩
          by_cases hji : j = i
          · simp [hji, isIn] at hin
          · simpa [hji] using hin
      · intro j k' q hj hq
        by_cases hji : j = i
        · subst hji
          rw [hk] at hj
          cases hj
          simp only [if_true, Stage.found.injEq] at hq
          exact ⟨p, hq.symm, e3⟩
        · simp only [if_neg hji] at hq
          obtain ⟨p', h1, h2⟩ := hr.gaps j k' q hj hq
          exact ⟨p', h1, gap_alloc hr.ring h2 _⟩
      · intro a b ka kb pa pb hab ha hb hqa hqb
        simp only at hqa hqb
        by_cases hai : a = i
        · rw [if_pos hai] at hqa
          rw [if_neg (by rw [← hai]; exact hab.symm)] at hqb
          simp only [Stage.found.injEq, Option.some.injEq] at hqa
          obtain ⟨p', h1, h2⟩ := hr.gaps b kb _ hb hqb
          simp only [Option.some.injEq] at h1
          subst h1
          have := h2.alloc
          rw [← hqa, e2]
          omega
        · rw [if_neg hai] at hqa
          by_cases hbi : b = i
          · rw [if_pos hbi] at hqb
            simp only [Stage.found.injEq, Option.some.injEq] at hqb
            obtain ⟨p', h1, h2⟩ := hr.gaps a ka _ ha hqa
            simp only [Option.some.injEq] at h1
            subst h1
            have := h2.alloc
            rw [← hqb, e2]
            omega
          · rw [if_neg hbi] at hqb
            exact hr.nodes a b ka kb pa pb hab ha hb hqa hqb
      · have := hr.ring.alloc a ha
        simp [allocNode, Ring.Heap.upd, Nat.ne_of_lt this]
    | found q =>
      simp only [hst, Except.ok.injEq] at ht
      subst ht
      obtain ⟨p, rfl, hg⟩ := hr.gaps i k q hk hst
      obtain ⟨as', l', e1, e2, e3, e4, e5⟩ := link_gap hr.ring hg (validate_toStr hpk)
      refine ⟨as', l', ⟨e1, ?_, ?_, ?_⟩, fun a ha => ⟨(e2 a).2 (.inr ha), (e4 a).2⟩⟩
      · intro y
        rw [e3, hr.vals]
        constructor
        · rintro (rfl | h | ⟨j, k', hj, hin, hy⟩)
          · exact .inr ⟨i, k, hk, by simp [isIn], rfl⟩
          · exact .inl h
          · refine .inr ⟨j, k', hj, ?_, hy⟩
            by_cases hji : j = i
            · simp [hji, isIn]
            · simpa [hji] using hin
        · rintro (h | ⟨j, k', hj, hin, hy⟩)
          · exact .inr (.inl h)
          · by_cases hji : j = i
            · subst hji
              rw [hk] at hj
              cases hj
              exact .inl hy
            · exact .inr (.inr ⟨j, k', hj, by simpa [hji] using hin, hy⟩)
      · intro j k' q hj hq
        by_cases hji : j = i
        · simp [hji] at hq
        · simp only [if_neg hji] at hq
          obtain ⟨p', rfl, h2⟩ := hr.gaps j k' q hj hq
          refine ⟨p', rfl, gap_link hg h2 (hr.nodes j i k' k p' p hji hj hk hq hst) ?_ e2 e4 e5⟩
          obtain ⟨d, hd, hbt⟩ := hsp.sep i j k k' (Ne.symm hji) hk hj
          obtain ⟨n, hn, hnk⟩ := stored_node hr.ring (hsp.properO d hd) ((hr.vals _).2 (.inl (List.mem_map.mpr ⟨d, hd, rfl⟩)))
          refine ⟨n, hn, ?_⟩
          rw [hnk, hkey, keyOf_toStr (hsp.proper k' (List.mem_of_getElem? hj))]
          exact hbt
      · intro a b ka kb pa pb hab ha hb hqa hqb
        simp only at hqa hqb
        by_cases hai : a = i
        · rw [if_pos hai] at hqa
          cases hqa
        · by_cases hbi : b = i
          · rw [if_pos hbi] at hqb
            cases hqb
          · rw [if_neg hai] at hqa
            rw [if_neg hbi] at hqb
            exact hr.nodes a b ka kb pa pb hab ha hb hqa hqb
    | linked =>
      simp only [hst, bind, Except.bind, pure, Except.pure] at ht
      split at ht
      · cases ht
      · rename_i v hv
        simp only [Except.ok.injEq] at ht
        subst ht
        refine ⟨as, l, ⟨hr.ring, ?_, ?_, ?_⟩, fun a ha => ⟨ha, rfl⟩⟩
        · intro y
          rw [hr.vals]
          refine or_congr_right ⟨?_, ?_⟩
          · rintro ⟨j, k', hj, hin, hy⟩
            refine ⟨j, k', hj, ?_, hy⟩
            by_cases hji : j = i
            · simp [hji, isIn]
            · simpa [hji] using hin
          · rintro ⟨j, k', hj, hin, hy⟩
            refine ⟨j, k', hj, ?_, hy⟩
            by_cases hji : j = i
            · rw [hji, hst]; rfl
            · simpa [hji] using hin
        · intro j k' q hj hq
          by_cases hji : j = i
          · simp [hji] at hq
          · simp only [if_neg hji] at hq
            exact hr.gaps j k' q hj hq
        · intro a b ka kb pa pb hab ha hb hqa hqb
          simp only at hqa hqb
          by_cases hai : a = i
          · rw [if_pos hai] at hqa
            cases hqa
          · by_cases hbi : b = i
            · rw [if_pos hbi] at hqb
              cases hqb
            · rw [if_neg hai] at hqa
              rw [if_neg hbi] at hqb
              exact hr.nodes a b ka kb pa pb hab ha hb hqa hqb
    | done ok =>
      simp only [hst, Except.ok.injEq] at ht
      subst ht
      exact ⟨as, l, hr, fun a ha => ⟨ha, rfl⟩⟩

theorem filterMap_range {α : Type} : ∀ l : List α, (List.range l.length).filterMap (l[·]?) = l
  | [] => rfl
  | a :: l => by
    rw [List.length_cons, List.range_succ_eq_map, List.filterMap_cons, List.filterMap_map]
    have : ((fun i => (a :: l)[i]?) ∘ Nat.succ) = fun i => l[i]? := by
      funext i
      simp
    rw [this, filterMap_range l]
    rfl

theorem shelve_kept (t : Clock) (acc : List CidOffer) (o : CidOffer) (h : expired o t = false) : (shelve t acc o).2 = true := by
  unfold shelve
  split
  · rfl
  · rw [if_neg (by simp [h])]

/-- What is known of the offers that are published at the same time. -/
def Fresh (A : List CidOffer) (calls : List Call) : Prop :=
  ∀ k ∈ calls, k.offer.cids = [k.cid] ∧ expired k.offer k.time = false ∧ k.offer ∈ A ∧ InRange k.offer

theorem tick_store {H512 : Hash} {A : List CidOffer} {calls : List Call} (hA : NoCollision H512 A) (hf : Fresh A calls) {w : World}
    (hlook : ∀ (i : Nat) k, calls[i]? = some k → w.stage i = .begun → ∃ e, insertLook w.mgr.ring (Ids.toStr k.cid) = .ok e)
    {s s' : Shelf} {ord : List Nat} (hs : StoreOk H512 A calls s w ord s') (i : Nat) :
    ∃ w' ord' s'', tick H512 calls w i = .ok w' ∧ StoreOk H512 A calls s w' ord' s'' := by
  unfold tick
  cases hk : calls[i]? with
  | none => exact ⟨w, ord, s', rfl, hs⟩
  | some k =>
    have hkm : k ∈ calls := List.mem_of_getElem? hk
    have hil : i < calls.length := (List.getElem?_eq_some_iff.mp hk).1
    have still : ∀ (st : Stage) (ring : Ring), (∀ ok, w.stage i ≠ .done ok) → (∀ ok, st ≠ .done ok) →
        StoreOk H512 A calls s ⟨{ w.mgr with ring := ring }, fun j => if j = i then st else w.stage j⟩ ord s' := by
      intro st ring h1 h2
      refine ⟨hs.nodup, ?_, ?_, hs.steps, ⟨hs.inv.dht, hs.inv.group, hs.inv.subD, hs.inv.subG⟩⟩
      · intro j
        rw [hs.mem]
        by_cases hj : j = i
        · subst hj
          simp [h1, h2]
        · simp [hj]
      · intro j hj
        by_cases hji : j = i
        · subst hji
          simp [h2]
        · simpa [hji] using hs.ok j hj
    dsimp only
    cases hst : w.stage i with
    | begun =>
      obtain ⟨e, e1⟩ := hlook i k hk hst
      simp only [e1, bind, Except.bind, pure, Except.pure]
      exact ⟨_, ord, s', rfl, still _ _ (by simp [hst]) (by simp)⟩
    | found q => exact ⟨_, ord, s', rfl, still _ _ (by simp [hst]) (by simp)⟩
    | linked =>
      obtain ⟨hc, he, hoA, hoR⟩ := hf k hkm
      obtain ⟨d1, e1, e2, _⟩ := add_rep (t := k.time) hs.inv.dht hoR (by rw [hc]; simp) (noCollision_sub hA (by
        intro x hx
        rcases List.mem_cons.1 hx with rfl | hx
        · exact hoA
        · exact hs.inv.subD x hx))
      rw [shelve_kept _ _ _ he] at e1
      simp only [e1, bind, Except.bind, pure, Except.pure]
      refine ⟨_, ord ++ [i], { s' with dht := (shelve k.time s'.dht k.offer).1, offered := k.cid :: s'.offered }, rfl, ?_, ?_, ?_, ?_, ?_⟩
      · rw [List.nodup_append]
        refine ⟨hs.nodup, by simp, ?_⟩
        intro a ha b hb
        rw [List.mem_singleton.mp hb]
        rintro rfl
        have := ((hs.mem a).1 ha).2
        rw [hst] at this
        cases this
      · intro j
        rw [List.mem_append, hs.mem, List.mem_singleton]
        by_cases hj : j = i
        · subst hj
          simp [hil]
        · simp [hj]
      · intro j hj
        by_cases hji : j = i
        · simp [hji]
        · simpa [hji] using hs.ok j hj
      · rw [List.filterMap_append, List.map_append, List.map_append]
        refine (steps_append _).2 ⟨_, _, s', rfl, by simp, hs.steps, ?_⟩
        simp only [List.filterMap_cons, hk, List.filterMap_nil, List.map_cons, List.map_nil, entry]
        refine ⟨_, _, _, rfl, ?_, rfl, rfl⟩
        simp only [Step, hc, shelve_kept _ _ _ he, and_self]
      · exact ⟨e2, hs.inv.group, shelve_sub hs.inv.subD hoA, hs.inv.subG⟩
    | done ok => exact ⟨w, ord, s', rfl, hs⟩

theorem play_inv {H512 : Hash} {A : List CidOffer} {calls : List Call} {offered : List Id} (hA : NoCollision H512 A) (hf : Fresh A calls) (hsp : Spread calls offered)
    {s : Shelf} : ∀ (sch : List Nat) {w : World} {as : List Nat} {l : List Hex}, RingOk calls offered w as l → ∀ {ord : List Nat} {s' : Shelf}, StoreOk H512 A calls s w ord s' →
      ∃ w' as' l' ord' s'', play H512 calls w sch = .ok w' ∧ RingOk calls offered w' as' l' ∧ StoreOk H512 A calls s w' ord' s''
  | [], w, as, l, hr, ord, s', hs => ⟨w, as, l, ord, s', rfl, hr, hs⟩
  | i :: sch, w, as, l, hr, ord, s', hs => by
    obtain ⟨w1, ord1, s1, e1, e2⟩ := tick_store hA hf (looks hsp hr) hs i
    obtain ⟨as1, l1, e3, _⟩ := tick_ring hsp hr e1
    obtain ⟨w2, as2, l2, ord2, s2, f1, f2, f3⟩ := play_inv hA hf hsp sch e3 e2
    exact ⟨w2, as2, l2, ord2, s2, by simp only [play, e1, bind, Except.bind, f1], f2, f3⟩

/-- The calls have all come to their end, and the ring holds what was on offer and what they published. -/
theorem settled {H512 : Hash} {order : DigestMap CidOffer → DigestMap CidOffer} {orderE : Storage CidOffer → Storage CidOffer}
    (hord : ∀ dm, (order dm).Perm dm) (hordE : ∀ st, (orderE st).Perm st) {A : List CidOffer} (hA : NoCollision H512 A) {h : List (Clock × Op)} {outs : List Out} {s : Shelf}
    (e2 : Steps H512 true noOffers h outs s) (hprop : ∀ d ∈ s.offered, Proper d) {calls : List Call} (hcid : ∀ k ∈ calls, k.offer.cids = [k.cid])
    (hpc : ∀ k ∈ calls, Proper k.cid) {w : World} {ord : List Nat} {s1 : Shelf} (f3 : StoreOk H512 A calls s w ord s1)
    {as' : List Nat} {l' : List Hex} (f2 : IsRingAt w.mgr.ring as' l')
    (hvals : ∀ y, y ∈ l' ↔ y ∈ s.offered.map Ids.toStr ∨ ∃ (i : Nat) (k : Call), calls[i]? = some k ∧ isIn (w.stage i) = true ∧ y = Ids.toStr k.cid)
    (hall : ∀ i < calls.length, ∃ ok, w.stage i = .done ok) :
    (∀ i < calls.length, w.stage i = .done true) ∧
      ∃ (dn : List Call) (s1 : Shelf), dn.Perm calls ∧
        Steps H512 true noOffers (h ++ dn.map (fun k => (k.time, .addDht k.offer))) (outs ++ dn.map (fun _ => .done true)) s1 ∧
        ∀ x y max t', Proper x → Proper y → x ≠ y →
          ∃ m2 out s2, exec H512 order orderE t' w.mgr (.range x y max) = .ok (m2, out) ∧ Step H512 true t' s1 (.range x y max) out s2 := by
  have hdone : ∀ i < calls.length, w.stage i = .done true := by
    intro i hi
    obtain ⟨ok, hok⟩ := hall i hi
    cases ok with
    | true => exact hok
    | false => exact absurd hok (f3.ok i hi)
  have hperm : (ord.filterMap (calls[·]?)).Perm calls := by
    have h1 : ord.Perm (List.range calls.length) := by
      rw [List.perm_ext_iff_of_nodup f3.nodup List.nodup_range]
      intro i
      rw [f3.mem, List.mem_range]
      exact ⟨fun h => h.1, fun h => ⟨h, hdone i h⟩⟩
    refine (h1.filterMap _).trans ?_
    rw [filterMap_range]
  have hoff1 := offered_steps _ f3.steps
  have hin : ∀ c, c ∈ dhtCids ((ord.filterMap (calls[·]?)).map entry) ↔ ∃ k ∈ calls, c = k.cid := by
    intro c
    simp only [dhtCids, List.mem_flatMap, List.mem_map]
    constructor
    · rintro ⟨_, ⟨k, hk, rfl⟩, hc⟩
      have hk' := hperm.mem_iff.1 hk
      simp only [entry, hcid k hk', List.mem_singleton] at hc
      exact ⟨k, hk', hc⟩
    · rintro ⟨k, hk, rfl⟩
      exact ⟨_, ⟨k, hperm.mem_iff.2 hk, rfl⟩, by simp only [entry, hcid k hk, List.mem_singleton]⟩
  have hri : RingInv w.mgr.ring s1.offered := by
    refine ⟨fun c hc => ?_, l', ⟨as', f2⟩, fun y => ?_⟩
    · rcases (hoff1 c).1 hc with h1 | h1
      · exact hprop c h1
      · obtain ⟨k, hk, rfl⟩ := (hin c).1 h1
        exact hpc k hk
    · rw [hvals]
      constructor
      · rintro (h1 | ⟨i, k, hk, _, rfl⟩)
        · obtain ⟨d, hd, rfl⟩ := List.mem_map.mp h1
          exact List.mem_map.mpr ⟨d, (hoff1 d).2 (.inl hd), rfl⟩
        · exact List.mem_map.mpr ⟨k.cid, (hoff1 _).2 (.inr ((hin _).2 ⟨k, List.mem_of_getElem? hk, rfl⟩)), rfl⟩
      · intro h1
        obtain ⟨d, hd, rfl⟩ := List.mem_map.mp h1
        rcases (hoff1 d).1 hd with h2 | h2
        · exact .inl (List.mem_map.mpr ⟨d, h2, rfl⟩)
        · obtain ⟨k, hk, rfl⟩ := (hin d).1 h2
          obtain ⟨i, hi, hik⟩ := List.mem_iff_getElem.mp hk
          exact .inr ⟨i, k, List.getElem?_eq_some_iff.mpr ⟨hi, hik⟩, by rw [hdone i hi]; rfl, rfl⟩
  refine ⟨hdone, ord.filterMap (calls[·]?), s1, hperm, (steps_append h).2 ⟨outs, _, s, rfl, steps_length e2, e2, f3.steps⟩, ?_⟩
  intro x y max t' hx hy hxy
  obtain ⟨m2, out, s2, n1, n2, _⟩ := sim_strict (order := order) (orderE := orderE) (t := t') (op := .range x y max) hord hordE hA f3.inv hri
    (by simp [added]) ⟨hx, hy⟩ (fun a' b' max' h => by cases h; exact hxy)
  exact ⟨m2, out, s2, n1, n2⟩

/-- **C177 (partial).** Any number of requests publish at the same time, each a content that is not on offer, and their parts (search the ring, write to it, store)
come in any order.  If some content on offer lies between any two of theirs, and below and above each, no request is lost or crashes: when all have come to their end,
all are answered with success, and every later listing answers as if they had been served one after the other, in some order.  What is missing: contents with
none between them, or at an end of the order (`C177_lost_refuted`), and requests that list meanwhile (`C177_endless_refuted`). -/
theorem C177_many_partial {H512 : Hash} {order : DigestMap CidOffer → DigestMap CidOffer} {orderE : Storage CidOffer → Storage CidOffer}
    (hord : ∀ dm, (order dm).Perm dm) (hordE : ∀ st, (orderE st).Perm st) (h : List (Clock × Op)) (calls : List Call)
    (hcid : ∀ k ∈ calls, k.offer.cids = [k.cid] ∧ expired k.offer k.time = false ∧ k.cid ∉ dhtCids h ∧
      (∃ d ∈ dhtCids h, position d < position k.cid) ∧ ∃ d ∈ dhtCids h, position k.cid < position d)
    (hsep : calls.Pairwise (fun k k' => ∃ d ∈ dhtCids h, (position k.cid < position d ∧ position d < position k'.cid) ∨
      (position k'.cid < position d ∧ position d < position k.cid)))
    (hh : SaneHistory H512 (h ++ calls.map (fun k => (k.time, .addDht k.offer)))) (hs : AllSafe [] h) (sch : List Nat) :
    ∃ m outs w, execAll H512 order orderE newMgr h = .ok (m, outs) ∧ play H512 calls ⟨m, fun _ => .begun⟩ sch = .ok w ∧
      ((∀ i < calls.length, ∃ ok, w.stage i = .done ok) →
        (∀ i < calls.length, w.stage i = .done true) ∧
        ∃ (dn : List Call) (s1 : Shelf), dn.Perm calls ∧
          Steps H512 true noOffers (h ++ dn.map (fun k => (k.time, .addDht k.offer))) (outs ++ dn.map (fun _ => .done true)) s1 ∧
          ∀ x y max t', Proper x → Proper y → x ≠ y →
            ∃ m2 out s2, exec H512 order orderE t' w.mgr (.range x y max) = .ok (m2, out) ∧ Step H512 true t' s1 (.range x y max) out s2) := by
  have hkA : ∀ k ∈ calls, k.offer ∈ allAdded (h ++ calls.map (fun k => (k.time, .addDht k.offer))) := fun k hk =>
    List.mem_flatMap.2 ⟨(k.time, .addDht k.offer), List.mem_append_right _ (List.mem_map.mpr ⟨k, hk, rfl⟩), by simp [added]⟩
  have hsub : ∀ e ∈ h, ∀ p ∈ added e.2, p ∈ allAdded (h ++ calls.map (fun k => (k.time, .addDht k.offer))) ∧ InRange p := by
    intro e hem p hp
    have : p ∈ allAdded (h ++ calls.map (fun k => (k.time, .addDht k.offer))) := List.mem_flatMap.2 ⟨e, List.mem_append_left _ hem, hp⟩
    exact ⟨this, hh.1 p this⟩
  have hpc : ∀ k ∈ calls, Proper k.cid := fun k hk => (hh.1 _ (hkA k hk)).2.1 k.cid (by rw [(hcid k hk).1]; simp)
  obtain ⟨m, outs, s, e1, e2, e3, e4⟩ := steps_strict (order := order) (orderE := orderE) hord hordE hh.2.2 h (sinv_new _) ringInv_new hsub
    (fun e hem => hh.2.1 e (List.mem_append_left _ hem)) hs
  have hoff : ∀ d, d ∈ s.offered ↔ d ∈ dhtCids h := by
    intro d
    rw [offered_steps h e2 d]
    simp [noOffers]
  have hsp : Spread calls s.offered := by
    refine ⟨hpc, e4.1, fun k hk => ?_, fun k hk => ?_, fun k hk => ?_, ?_⟩
    · rw [hoff]
      exact (hcid k hk).2.2.1
    · obtain ⟨d, hd, hlt⟩ := (hcid k hk).2.2.2.1
      exact ⟨d, (hoff d).2 hd, hlt⟩
    · obtain ⟨d, hd, hlt⟩ := (hcid k hk).2.2.2.2
      exact ⟨d, (hoff d).2 hd, hlt⟩
    · intro i j k k' hij hi hj
      rw [List.pairwise_iff_getElem] at hsep
      obtain ⟨hi1, hi2⟩ := List.getElem?_eq_some_iff.mp hi
      obtain ⟨hj1, hj2⟩ := List.getElem?_eq_some_iff.mp hj
      rcases Nat.lt_or_gt_of_ne hij with hlt | hlt
      · obtain ⟨d, hd, hb⟩ := hsep i j hi1 hj1 hlt
        rw [hi2, hj2] at hb
        exact ⟨d, (hoff d).2 hd, hb⟩
      · obtain ⟨d, hd, hb⟩ := hsep j i hj1 hi1 hlt
        rw [hi2, hj2] at hb
        exact ⟨d, (hoff d).2 hd, hb.symm⟩
  have hf : Fresh (allAdded (h ++ calls.map (fun k => (k.time, .addDht k.offer)))) calls :=
    fun k hk => ⟨(hcid k hk).1, (hcid k hk).2.1, hkA k hk, hh.1 _ (hkA k hk)⟩
  obtain ⟨hprop, l, ⟨as, hl⟩, hm⟩ := e4
  have hr0 : RingOk calls s.offered ⟨m, fun _ => .begun⟩ as l := by
    refine ⟨hl, fun y => ?_, fun i k q _ hq => by simp at hq, fun i j k k' p p' _ _ _ hq _ => by simp at hq⟩
    rw [hm]
    simp [isIn]
  have hs0 : StoreOk H512 (allAdded (h ++ calls.map (fun k => (k.time, .addDht k.offer)))) calls s ⟨m, fun _ => .begun⟩ [] s :=
    ⟨List.nodup_nil, by simp, by simp, ⟨rfl, rfl⟩, e3⟩
  obtain ⟨w, as', l', ord, s1, f1, f2, f3⟩ := play_inv hh.2.2 hf hsp sch hr0 hs0
  refine ⟨m, outs, w, e1, f1, fun hall => ?_⟩
  exact settled hord hordE hh.2.2 e2 hprop (fun k hk => (hcid k hk).1) hpc f3 f2.ring f2.vals hall

/-- **C177 (parts).** A call whose three parts come one after the other does what `AddDHTOffer` does in `Model/OfferMgr`: the same change of the memory, the same answer. -/
theorem C177_call_parts (H512 : Hash) (calls : List Call) (w : World) (i : Nat) (k : Call) (hk : calls[i]? = some k) (hc : k.offer.cids = [k.cid])
    (hst : w.stage i = .begun) :
    (play H512 calls w [i, i, i]).map (fun w' => (w'.mgr, w'.stage i)) = (OfferMgr.addDht H512 id k.time w.mgr k.offer).map (fun e => (e.1, .done e.2)) := by
  unfold OfferMgr.addDht
  simp only [id_eq, hc, ← C177_insert_parts, play, tick, hk, hst, bind, Except.bind, pure, Except.pure]
  cases insertLook w.mgr.ring (Ids.toStr k.cid) with
  | error f => rfl
  | ok e =>
    simp only [Except.map, if_true]
    cases OfferMgr.add H512 id k.time w.mgr.dht k.offer <;> simp

example := C177_call_parts (fun x => x) [⟨⟨1002, 0⟩, exDht 3 2000, Merkle.exId 3⟩] ⟨newMgr, fun _ => .begun⟩ 0 _ rfl rfl rfl

/-- Contents 2, 5, 9 and 12 are on offer. -/
def exH4 : List (Clock × Op) := exH ++ [(⟨1001, 5⟩, .addDht (exDht 12 2000))]

/-- Contents 3, 7 and 10 are published at the same time. -/
def exCalls : List Call := [⟨⟨1002, 0⟩, exDht 3 2000, Merkle.exId 3⟩, ⟨⟨1002, 1⟩, exDht 10 2000, Merkle.exId 10⟩, ⟨⟨1002, 2⟩, exDht 7 2000, Merkle.exId 7⟩]

theorem exH4_cids : dhtCids exH4 = [Merkle.exId 2, Merkle.exId 9, Merkle.exId 5, Merkle.exId 12] := rfl

theorem exCalls_new : ∀ k ∈ exCalls, k.offer.cids = [k.cid] ∧ expired k.offer k.time = false ∧ k.cid ∉ dhtCids exH4 ∧
    (∃ d ∈ dhtCids exH4, position d < position k.cid) ∧ ∃ d ∈ dhtCids exH4, position k.cid < position d := by
  intro k hk
  rw [exH4_cids]
  simp only [exCalls, List.mem_cons, List.not_mem_nil, or_false] at hk
  rcases hk with rfl | rfl | rfl
  · exact ⟨rfl, by decide +kernel, by decide +kernel, ⟨Merkle.exId 2, by decide +kernel, by decide +kernel⟩, ⟨Merkle.exId 5, by decide +kernel, by decide +kernel⟩⟩
  · exact ⟨rfl, by decide +kernel, by decide +kernel, ⟨Merkle.exId 9, by decide +kernel, by decide +kernel⟩, ⟨Merkle.exId 12, by decide +kernel, by decide +kernel⟩⟩
  · exact ⟨rfl, by decide +kernel, by decide +kernel, ⟨Merkle.exId 5, by decide +kernel, by decide +kernel⟩, ⟨Merkle.exId 9, by decide +kernel, by decide +kernel⟩⟩

theorem exCalls_apart : exCalls.Pairwise (fun k k' => ∃ d ∈ dhtCids exH4, (position k.cid < position d ∧ position d < position k'.cid) ∨
    (position k'.cid < position d ∧ position d < position k.cid)) := by
  rw [exH4_cids]
  refine .cons ?_ (.cons ?_ (.cons (by simp) .nil))
  · intro k hk
    simp only [List.mem_cons, List.not_mem_nil, or_false] at hk
    rcases hk with rfl | rfl
    · exact ⟨Merkle.exId 5, by decide +kernel, Or.inl (by decide +kernel)⟩
    · exact ⟨Merkle.exId 5, by decide +kernel, Or.inl (by decide +kernel)⟩
  · intro k hk
    simp only [List.mem_cons, List.not_mem_nil, or_false] at hk
    subst hk
    exact ⟨Merkle.exId 9, by decide +kernel, Or.inr (by decide +kernel)⟩

theorem exH4_sane : SaneHistory (fun x => x) (exH4 ++ exCalls.map (fun k => (k.time, .addDht k.offer))) := by
  refine ⟨?_, ?_, fun o _ o' _ b b' _ _ h => h⟩
  · intro o ho
    simp [exH4, exH, exCalls, allAdded, added] at ho
    rcases ho with rfl | rfl | rfl | rfl | rfl | rfl | rfl <;> exact exDht_inRange _
  · intro e he
    simp only [exH4, exH, exCalls, List.map_cons, List.map_nil, List.cons_append, List.nil_append, List.mem_cons, List.mem_nil_iff, or_false] at he
    rcases he with rfl | rfl | rfl | rfl | rfl | rfl | rfl <;> simp [ProperOp]

theorem exH4_safe : AllSafe [] exH4 := by
  simp only [exH4, exH, List.cons_append, List.nil_append, AllSafe, exDht]

/-- All search before the first writes. -/
example := C177_many_partial (H512 := fun x => x) (order := fun l => l) (orderE := fun l => l) (fun _ => .refl _) (fun _ => .refl _) exH4 exCalls
  exCalls_new exCalls_apart exH4_sane exH4_safe [0, 1, 2, 2, 1, 0, 0, 1, 2]

/-- With that schedule all three calls come to their end. -/
example : (execAll (fun x => x) (fun l => l) (fun l => l) newMgr exH4).toOption.any (fun e =>
    (play (fun x => x) exCalls ⟨e.1, fun _ => .begun⟩ [0, 1, 2, 2, 1, 0, 0, 1, 2]).toOption.any (fun w =>
      [0, 1, 2].all (fun i => match w.stage i with | .done _ => true | _ => false))) = true := by decide +kernel

end FcRetrieval.RingShared
