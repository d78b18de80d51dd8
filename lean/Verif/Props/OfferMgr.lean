import Verif.Lemmas.OfferMgrHist
/-!
# Properties of the in-memory offer manager (C20–C22, C24, C25, C69)

In all statements `order` and `orderE` are the orders in which Go happens to iterate over the maps.
-/
set_option linter.unusedSimpArgs false
namespace FcRetrieval.OfferMgr
open FcRetrieval.Ids (Id Proper position)
open FcRetrieval.Merkle (Hash exId exId_proper)
open FcRetrieval.Offer (CidOffer terms InRange)
open FcRetrieval.Ring (Fault Ring)

/-! ## data for the examples -/

/-- A DHT offer of one content. -/
def exDht (n : UInt8) (expiry : Int) : CidOffer :=
  { providerID := some (exId 9), cids := [exId n], price := 5, expiry := expiry, qos := 3, signature := [], merkleRoot := [] }
/-- A group offer of two contents. -/
def exGroup (n k : UInt8) (expiry : Int) : CidOffer :=
  { providerID := some (exId 9), cids := [exId n, exId k], price := 5, expiry := expiry, qos := 3, signature := [], merkleRoot := [] }
/-- A history: offers are added, one expires, and lookups and a range listing are made. -/
def exHistory : List (Clock × Op) :=
  [(⟨1000, 0⟩, .addDht (exDht 3 2000)), (⟨1000, 1⟩, .addDht (exDht 5 2000)), (⟨1001, 0⟩, .addGroup (exGroup 3 5 1500)),
   (⟨1001, 0⟩, .addGroup (exGroup 3 5 1500)), (⟨1200, 0⟩, .getOffers (exId 3)), (⟨1300, 0⟩, .range (exId 4) (exId 6) 10),
   (⟨1600, 0⟩, .getOffers (exId 3)), (⟨1600, 0⟩, .addGroup (exGroup 3 5 1500))]

theorem exDht_inRange (n : UInt8) : InRange (exDht n 2000) := by
  refine ⟨⟨exId 9, rfl, exId_proper 9⟩, ?_, by simp [exDht], by simp [exDht], by simp [exDht], by simp [exDht]⟩
  intro c hc
  simp [exDht] at hc
  rw [hc]; exact exId_proper _
theorem exGroup_inRange (n k : UInt8) : InRange (exGroup n k 1500) := by
  refine ⟨⟨exId 9, rfl, exId_proper 9⟩, ?_, by simp [exGroup], by simp [exGroup], by simp [exGroup], by simp [exGroup]⟩
  intro c hc
  simp [exGroup] at hc
  rcases hc with rfl | rfl <;> exact exId_proper _

/-- The history meets the hypotheses of all theorems below (with a hash that does not collide). -/
theorem exHistory_sane : SaneHistory (fun b => b) exHistory := by
  refine ⟨?_, ?_, ?_⟩
  · intro o ho
    simp [exHistory, allAdded, added] at ho
    rcases ho with rfl | rfl | rfl
    · exact exDht_inRange 3
    · exact exDht_inRange 5
    · exact exGroup_inRange 3 5
  · intro e he
    simp only [exHistory, List.mem_cons, List.mem_nil_iff, or_false] at he
    rcases he with rfl | rfl | rfl | rfl | rfl | rfl | rfl | rfl <;>
      simp [ProperOp, exId_proper]
  · intro o _ o' _ b b' _ _ h
    exact h
theorem exHistory_ordered : Ordered exHistory ⟨1700, 0⟩ := by
  refine ⟨?_, ?_⟩
  · simp [exHistory, Clock.le]
  · intro t ht
    simp [exHistory] at ht
    rcases ht with rfl | rfl | rfl | rfl | rfl | rfl | rfl <;> exact ⟨by decide, by decide⟩
theorem exHistory_safe : AllSafe [] exHistory := by
  simp only [exHistory, AllSafe, exDht]
  refine ⟨⟨by decide +kernel, Or.inr ⟨exId 3, by simp, by decide +kernel⟩, Or.inr (Or.inl ⟨exId 3, by simp, by decide +kernel⟩)⟩, trivial⟩

/-! ## C21 lookups are exact -/

variable (H512 : Hash) (order : DigestMap CidOffer → DigestMap CidOffer) (orderE : Storage CidOffer → Storage CidOffer)

/-- **C21**, the whole behaviour: every history whose calls return is answered as the specification says. -/
theorem C21_refines (hord : ∀ dm, (order dm).Perm dm) (hordE : ∀ st, (orderE st).Perm st) (h : List (Clock × Op))
    (m : Mgr CidOffer) (outs : List Out) (hh : SaneHistory H512 h) (he : execAll H512 order orderE newMgr h = .ok (m, outs)) :
    ∃ s, Steps H512 false noOffers h outs s := by
  obtain ⟨s, h1, _⟩ := steps_loose hord hordE hh.2.2 h (sinv_new _)
    (fun e he o ho => ⟨List.mem_flatMap.2 ⟨e, he, ho⟩, hh.1 o (List.mem_flatMap.2 ⟨e, he, ho⟩)⟩) hh.2.1 he
  exact ⟨s, h1⟩

/-- **C21**: calls return, and range listings are exact too, as long as no range query damages the ring. -/
theorem C21_returns (hord : ∀ dm, (order dm).Perm dm) (hordE : ∀ st, (orderE st).Perm st) (h : List (Clock × Op))
    (hh : SaneHistory H512 h) (hs : AllSafe [] h) :
    ∃ m outs s, execAll H512 order orderE newMgr h = .ok (m, outs) ∧ Steps H512 true noOffers h outs s := by
  obtain ⟨m, outs, s, h1, h2, _⟩ := steps_strict (order := order) (orderE := orderE) hord hordE hh.2.2 h (sinv_new _) ringInv_new
    (fun e he o ho => ⟨List.mem_flatMap.2 ⟨e, he, ho⟩, hh.1 o (List.mem_flatMap.2 ⟨e, he, ho⟩)⟩) hh.2.1 hs
  exact ⟨m, outs, s, h1, h2⟩

/-- A history that ends with a given call splits into what came before and that call. -/
theorem last_call (hord : ∀ dm, (order dm).Perm dm) (hordE : ∀ st, (orderE st).Perm st) {h : List (Clock × Op)} {t : Clock} {op : Op}
    {m : Mgr CidOffer} {outs : List Out} (hh : SaneHistory H512 (h ++ [(t, op)])) (ho : Ordered h t)
    (he : execAll H512 order orderE newMgr (h ++ [(t, op)]) = .ok (m, outs)) :
    ∃ outs0 out s s', outs = outs0 ++ [out] ∧ KeepsAll (h.zip outs0) t s ∧ Step H512 false t s op out s' := by
  obtain ⟨s', h1⟩ := C21_refines H512 order orderE hord hordE _ m outs hh he
  obtain ⟨o1, o2, s, rfl, _, h3, h4⟩ := (steps_append h).1 h1
  obtain ⟨out, rest, s1, rfl, h5, rfl, rfl⟩ := h4
  exact ⟨o1, out, s, _, rfl, keepsAll_history ho h3, h5⟩

/-- What a listing contains, in terms of the events of the history. -/
theorem listing_exact {E : CidOffer → Prop} {t : Clock} {acc l : List CidOffer} {c : Id} (hk : Keeps E t acc)
    (hp : l.Perm (listing t acc c)) :
    (∀ o ∈ l, E o) ∧
    (∀ o, (∃ o' ∈ l, terms o' = terms o) ↔ (∃ o', E o' ∧ terms o' = terms o) ∧ c ∈ o.cids ∧ expired o t = false) ∧
    (l.map terms).Nodup := by
  have hcid : ∀ {o o' : CidOffer}, terms o = terms o' → o.cids = o'.cids := by
    intro o o' h
    unfold terms at h
    simp only [Prod.mk.injEq] at h
    exact h.2.1
  refine ⟨fun o ho => hk.only o (List.mem_filter.1 (hp.mem_iff.1 ho)).1, ?_, ?_⟩
  · intro o
    constructor
    · rintro ⟨o', h1, h2⟩
      have := List.mem_filter.1 (hp.mem_iff.1 h1)
      simp only [Bool.and_eq_true, decide_eq_true_eq, Bool.not_eq_true'] at this
      refine ⟨⟨o', hk.only o' this.1, h2⟩, hcid h2 ▸ this.2.1, ?_⟩
      rw [← expired_terms h2]
      exact this.2.2
    · rintro ⟨⟨o', h1, h2⟩, h3, h4⟩
      obtain ⟨x, h5, h6⟩ := hk.all o' h1 t (le_refl t) hk.sane (by rw [expired_terms h2]; exact h4)
      refine ⟨x, hp.mem_iff.2 (List.mem_filter.2 ⟨h5, ?_⟩), by rw [h6, h2]⟩
      have e := hcid (h6.trans h2)
      rw [expired_terms (h6.trans h2), e]
      simp [h3, h4]
  · rw [(hp.map terms).nodup_iff]
    unfold List.Nodup
    rw [List.pairwise_map]
    exact hk.once.sublist List.filter_sublist

/-- **C21.** `GetOffers` answers first group offers, then DHT offers; of each kind exactly the accepted, unexpired ones
listing the content, each once. -/
theorem C21_getOffers_exact (hord : ∀ dm, (order dm).Perm dm) (hordE : ∀ st, (orderE st).Perm st) (h : List (Clock × Op)) (t : Clock)
    (c : Id) (m : Mgr CidOffer) (outs : List Out) (hh : SaneHistory H512 (h ++ [(t, .getOffers c)])) (ho : Ordered h t)
    (he : execAll H512 order orderE newMgr (h ++ [(t, .getOffers c)]) = .ok (m, outs)) :
    ∃ outs0 l l', outs = outs0 ++ [.offers (l ++ l') (!(l ++ l').isEmpty)] ∧
      (∀ o ∈ l, AcceptedGroup h outs0 o) ∧ (∀ o ∈ l', AcceptedDht h outs0 o) ∧
      (∀ o, (∃ o' ∈ l, terms o' = terms o) ↔
        (∃ o', AcceptedGroup h outs0 o' ∧ terms o' = terms o) ∧ c ∈ o.cids ∧ expired o t = false) ∧
      (∀ o, (∃ o' ∈ l', terms o' = terms o) ↔
        (∃ o', AcceptedDht h outs0 o' ∧ terms o' = terms o) ∧ c ∈ o.cids ∧ expired o t = false) ∧
      (l.map terms).Nodup ∧ (l'.map terms).Nodup := by
  obtain ⟨outs0, out, s, s', rfl, hk, l, l', h1, h2, rfl, rfl⟩ := last_call H512 order orderE hord hordE hh ho he
  obtain ⟨a1, a2, a3⟩ := listing_exact hk.group h1
  obtain ⟨b1, b2, b3⟩ := listing_exact hk.dht h2
  exact ⟨outs0, l, l', rfl, a1, b1, a2, b2, a3, b3⟩

/-- **C21**, `GetGroupOffers`. -/
theorem C21_getGroupOffers_exact (hord : ∀ dm, (order dm).Perm dm) (hordE : ∀ st, (orderE st).Perm st) (h : List (Clock × Op)) (t : Clock)
    (c : Id) (m : Mgr CidOffer) (outs : List Out) (hh : SaneHistory H512 (h ++ [(t, .getGroup c)])) (ho : Ordered h t)
    (he : execAll H512 order orderE newMgr (h ++ [(t, .getGroup c)]) = .ok (m, outs)) :
    ∃ outs0 l, outs = outs0 ++ [.offers l (!l.isEmpty)] ∧ (∀ o ∈ l, AcceptedGroup h outs0 o) ∧
      (∀ o, (∃ o' ∈ l, terms o' = terms o) ↔
        (∃ o', AcceptedGroup h outs0 o' ∧ terms o' = terms o) ∧ c ∈ o.cids ∧ expired o t = false) ∧
      (l.map terms).Nodup := by
  obtain ⟨outs0, out, s, s', rfl, hk, l, h1, rfl, rfl⟩ := last_call H512 order orderE hord hordE hh ho he
  obtain ⟨a1, a2, a3⟩ := listing_exact hk.group h1
  exact ⟨outs0, l, rfl, a1, a2, a3⟩

/-- **C21**, `GetDHTOffers`. -/
theorem C21_getDhtOffers_exact (hord : ∀ dm, (order dm).Perm dm) (hordE : ∀ st, (orderE st).Perm st) (h : List (Clock × Op)) (t : Clock)
    (c : Id) (m : Mgr CidOffer) (outs : List Out) (hh : SaneHistory H512 (h ++ [(t, .getDht c)])) (ho : Ordered h t)
    (he : execAll H512 order orderE newMgr (h ++ [(t, .getDht c)]) = .ok (m, outs)) :
    ∃ outs0 l, outs = outs0 ++ [.offers l (!l.isEmpty)] ∧ (∀ o ∈ l, AcceptedDht h outs0 o) ∧
      (∀ o, (∃ o' ∈ l, terms o' = terms o) ↔
        (∃ o', AcceptedDht h outs0 o' ∧ terms o' = terms o) ∧ c ∈ o.cids ∧ expired o t = false) ∧
      (l.map terms).Nodup := by
  obtain ⟨outs0, out, s, s', rfl, hk, l, h1, rfl, rfl⟩ := last_call H512 order orderE hord hordE hh ho he
  obtain ⟨a1, a2, a3⟩ := listing_exact hk.dht h1
  exact ⟨outs0, l, rfl, a1, a2, a3⟩

/-- The hypotheses hold of a history with all kinds of calls, and its answers are the expected ones. -/
example : SaneHistory (fun b => b) exHistory ∧ Ordered exHistory ⟨1700, 0⟩ ∧ AllSafe [] exHistory ∧
    (execAll (fun b => b) (fun l => l) (fun l => l) newMgr exHistory).map (·.2) =
      .ok [.done true, .done true, .done true, .done true, .offers [exGroup 3 5 1500, exDht 3 2000] true,
           .offers [exDht 5 2000] true, .offers [exDht 3 2000] true, .done false] :=
  ⟨exHistory_sane, exHistory_ordered, exHistory_safe, by decide +kernel⟩

/-! ## C20 expired offers -/

/-- Everything listed is on the shelf and unexpired. -/
theorem step_unexpired {strict : Bool} {t : Clock} {s s' : Shelf} {op : Op} {l : List CidOffer} {f : Bool}
    (h : Step H512 strict t s op (.offers l f) s') : ∀ o ∈ l, expired o t = false := by
  have hl : ∀ {acc l : List CidOffer} {c : Id}, l.Perm (listing t acc c) → ∀ o ∈ l, expired o t = false := by
    intro acc l c hp o ho
    have := (List.mem_filter.1 (hp.mem_iff.1 ho)).2
    simp only [Bool.and_eq_true, decide_eq_true_eq, Bool.not_eq_true'] at this
    exact this.2
  cases op with
  | addGroup o =>
    simp only [Step] at h
    split at h <;> simp at h
  | addDht o =>
    simp only [Step] at h
    split at h <;> simp at h
  | getGroup c =>
    obtain ⟨l', h1, h2, _⟩ := h
    cases h2
    exact hl h1
  | getDht c =>
    obtain ⟨l', h1, h2, _⟩ := h
    cases h2
    exact hl h1
  | getOffers c =>
    obtain ⟨l1, l2, h1, h2, h3, _⟩ := h
    cases h3
    intro o ho
    rcases List.mem_append.1 ho with ho | ho
    · exact hl h1 o ho
    · exact hl h2 o ho
  | range a b max =>
    obtain ⟨es, full, visited, found, h1, h3, h2, h4⟩ := h
    cases h2
    intro o ho
    have hm := List.mem_of_mem_take ho
    clear ho h3 h4
    induction es generalizing full with
    | nil => rw [h1] at hm; simp at hm
    | cons c cs ih =>
      obtain ⟨l1, rest, h3, h4, rfl⟩ := h1
      rcases List.mem_append.1 hm with hm | hm
      · exact hl h3 o hm
      · exact ih rest h4 hm
  | byDigest d =>
    obtain ⟨_, r, h1, _⟩ := h
    cases h1

/-- **C20.** No lookup or listing at time `t` returns an offer expired at `t`. -/
theorem C20_no_expired (hord : ∀ dm, (order dm).Perm dm) (hordE : ∀ st, (orderE st).Perm st) (h : List (Clock × Op))
    (m : Mgr CidOffer) (outs : List Out) (hh : SaneHistory H512 h) (he : execAll H512 order orderE newMgr h = .ok (m, outs))
    (t : Clock) (op : Op) (l : List CidOffer) (f : Bool) (hm : ((t, op), Out.offers l f) ∈ h.zip outs) :
    ∀ o ∈ l, expired o t = false := by
  obtain ⟨s, hs⟩ := C21_refines H512 order orderE hord hordE h m outs hh he
  clear he hh
  generalize noOffers = s0 at hs
  induction h generalizing s0 outs with
  | nil => simp at hm
  | cons e h ih =>
    obtain ⟨t', op'⟩ := e
    obtain ⟨out, rest, s1, rfl, h1, h2⟩ := hs
    simp only [List.zip_cons_cons, List.mem_cons, Prod.mk.injEq] at hm
    rcases hm with ⟨⟨rfl, rfl⟩, rfl⟩ | hm
    · exact step_unexpired H512 h1
    · exact ih rest hm s1 h2

/-- **C20.** An expired offer stays expired while the clock does not go back, so no later lookup returns it. -/
theorem C20_stays_expired (o : CidOffer) (t t' : Clock) (h : t.le t') (hs : t.Sane) (hs' : t'.Sane) (he : expired o t = true) :
    expired o t' = true := expired_mono o h hs hs' he

example : Clock.le ⟨1500, 1⟩ ⟨1600, 0⟩ ∧ Clock.Sane ⟨1600, 0⟩ ∧ expired (exGroup 3 5 1500) ⟨1500, 1⟩ = true ∧
    expired (exGroup 3 5 1500) ⟨1600, 0⟩ = true ∧ expired (exGroup 3 5 1500) ⟨1500, 0⟩ = false :=
  ⟨Or.inl (by decide), ⟨by decide, by decide⟩, by decide +kernel, by decide +kernel, by decide +kernel⟩

/-! ## C22 adding twice -/

/-- The state a history leads to, with what is known about it. -/
theorem history_state (hord : ∀ dm, (order dm).Perm dm) (hordE : ∀ st, (orderE st).Perm st) {h : List (Clock × Op)} {t : Clock}
    {A : List CidOffer} {m : Mgr CidOffer} {outs : List Out} (hA : NoCollision H512 A) (hin : ∀ o ∈ allAdded h, o ∈ A ∧ InRange o)
    (hp : ∀ e ∈ h, ProperOp e.2) (ho : Ordered h t) (he : execAll H512 order orderE newMgr h = .ok (m, outs)) :
    ∃ s, KeepsAll (h.zip outs) t s ∧ SInv H512 A m s := by
  obtain ⟨s, h1, h2⟩ := steps_loose hord hordE hA h (sinv_new _) (fun e he o ho => hin o (List.mem_flatMap.2 ⟨e, he, ho⟩)) hp he
  exact ⟨s, keepsAll_history ho h1, h2⟩

/-- **C22.** Adding an unexpired group offer whose terms were accepted before reports success and changes nothing at all. -/
theorem C22_group_again (hord : ∀ dm, (order dm).Perm dm) (hordE : ∀ st, (orderE st).Perm st) (h : List (Clock × Op)) (t : Clock)
    (o o' : CidOffer) (m : Mgr CidOffer) (outs : List Out) (hh : SaneHistory H512 (h ++ [(t, .addGroup o)])) (ho : Ordered h t)
    (he : execAll H512 order orderE newMgr h = .ok (m, outs)) (hacc : AcceptedGroup h outs o') (ht : terms o' = terms o)
    (hun : expired o t = false) : exec H512 order orderE t m (.addGroup o) = .ok (m, .done true) := by
  have hsub : ∀ x ∈ allAdded h, x ∈ allAdded (h ++ [(t, .addGroup o)]) := by
    intro x hx
    simp only [allAdded, List.flatMap_append, List.mem_append] at hx ⊢
    exact Or.inl hx
  have hoin : o ∈ allAdded (h ++ [(t, .addGroup o)]) := by simp [allAdded, added]
  obtain ⟨s, hk, hs⟩ := history_state H512 order orderE hord hordE hh.2.2 (fun x hx => ⟨hsub x hx, hh.1 x (hsub x hx)⟩)
    (fun e he => hh.2.1 e (by simp [he])) ho he
  obtain ⟨x, hx1, hx2⟩ := hk.group.all o' hacc t (le_refl t) hk.group.sane (by rw [expired_terms ht]; exact hun)
  have hterm : terms x = terms o := hx2.trans ht
  have hlen : ¬ o.cids.length ≤ 1 := by
    have h1 := hk.many x hx1
    have : x.cids = o.cids := by
      unfold terms at hterm
      simp only [Prod.mk.injEq] at hterm
      exact hterm.2.1
    rw [this] at h1
    omega
  obtain ⟨g, e1, _, e3⟩ := add_rep (t := t) hs.group (hh.1 o hoin) (by intro h; simp [h] at hlen)
    (noCollision_sub hh.2.2 (by
      intro y hy
      rcases List.mem_cons.1 hy with rfl | hy
      · exact hoin
      · exact hs.subG y hy))
  have hsh : shelve t s.group o = (s.group, true) := by
    unfold shelve
    rw [if_pos ((any_terms_iff _ _).2 ⟨x, hx1, hterm⟩)]
  rw [hsh] at e1 e3
  obtain rfl := e3 rfl
  have : addGroup H512 id t m o = .ok (m, true) := by
    unfold addGroup
    rw [if_neg (by simpa using hlen)]
    simp only [bind, Except.bind, pure, Except.pure, e1]
  simp only [exec, this, bind, Except.bind, pure, Except.pure]

/-- **C22.** Adding an unexpired DHT offer whose terms were accepted before reports success and leaves both collections of
offers as they were. -/
theorem C22_dht_again (hord : ∀ dm, (order dm).Perm dm) (hordE : ∀ st, (orderE st).Perm st) (h : List (Clock × Op)) (t : Clock)
    (o o' : CidOffer) (m m' : Mgr CidOffer) (outs : List Out) (out : Out) (hh : SaneHistory H512 (h ++ [(t, .addDht o)]))
    (ho : Ordered h t) (he : execAll H512 order orderE newMgr h = .ok (m, outs)) (hacc : AcceptedDht h outs o')
    (ht : terms o' = terms o) (hun : expired o t = false) (hx : exec H512 order orderE t m (.addDht o) = .ok (m', out)) :
    out = .done true ∧ m'.dht = m.dht ∧ m'.group = m.group := by
  have hsub : ∀ x ∈ allAdded h, x ∈ allAdded (h ++ [(t, .addDht o)]) := by
    intro x hx
    simp only [allAdded, List.flatMap_append, List.mem_append] at hx ⊢
    exact Or.inl hx
  have hoin : o ∈ allAdded (h ++ [(t, .addDht o)]) := by simp [allAdded, added]
  obtain ⟨s, hk, hs⟩ := history_state H512 order orderE hord hordE hh.2.2 (fun x hx => ⟨hsub x hx, hh.1 x (hsub x hx)⟩)
    (fun e he => hh.2.1 e (by simp [he])) ho he
  obtain ⟨x, hx1, hx2⟩ := hk.dht.all o' hacc t (le_refl t) hk.dht.sane (by rw [expired_terms ht]; exact hun)
  have hterm : terms x = terms o := hx2.trans ht
  obtain ⟨c, _, hc⟩ := hk.one x hx1
  have hoc : o.cids = [c] := by
    unfold terms at hterm
    simp only [Prod.mk.injEq] at hterm
    rw [← hterm.2.1]
    exact hc
  cases hr : Ring.insert m.ring (Ids.toStr c) with
  | error f =>
    exfalso
    have : addDht H512 id t m o = .error f := by
      unfold addDht
      split
      · rename_i c' h
        simp only [id, hoc, List.cons.injEq, and_true] at h
        subst h
        simp only [bind, Except.bind, hr]
      · rename_i h
        exact absurd (show (id o).cids = [c] from hoc) (h c)
    simp only [exec, this, bind, Except.bind] at hx
    cases hx
  | ok r =>
    obtain ⟨g, e1, _, e3⟩ := add_rep (t := t) hs.dht (hh.1 o hoin) (by rw [hoc]; simp)
      (noCollision_sub hh.2.2 (by
        intro y hy
        rcases List.mem_cons.1 hy with rfl | hy
        · exact hoin
        · exact hs.subD y hy))
    have hsh : shelve t s.dht o = (s.dht, true) := by
      unfold shelve
      rw [if_pos ((any_terms_iff _ _).2 ⟨x, hx1, hterm⟩)]
    rw [hsh] at e1 e3
    obtain rfl := e3 rfl
    have : addDht H512 id t m o = .ok ({ m with ring := r }, true) := by
      unfold addDht
      split
      · rename_i c' h
        simp only [id, hoc, List.cons.injEq, and_true] at h
        subst h
        simp only [bind, Except.bind, pure, Except.pure, hr, e1]
      · rename_i h
        exact absurd (show (id o).cids = [c] from hoc) (h c)
    simp only [exec, this, bind, Except.bind, pure, Except.pure] at hx
    cases hx
    exact ⟨rfl, rfl, rfl⟩

/-- **C22.** A group offer has several CIDs, a DHT offer exactly one: others are refused and nothing changes. -/
theorem C22_kinds (t : Clock) (m : Mgr CidOffer) (o : CidOffer) :
    (o.cids.length ≤ 1 → exec H512 order orderE t m (.addGroup o) = .ok (m, .done false)) ∧
    (o.cids.length ≠ 1 → exec H512 order orderE t m (.addDht o) = .ok (m, .done false)) := by
  constructor
  · intro h
    simp only [exec, addGroup, id, if_pos h, bind, Except.bind, pure, Except.pure]
  · intro h
    have : addDht H512 id t m o = .ok (m, false) := by
      unfold addDht
      split
      · rename_i h1; simp only [id] at h1; rw [h1] at h; simp at h
      · rfl
    simp only [exec, this, bind, Except.bind, pure, Except.pure]

/-- **C22.** An expired offer whose terms were never accepted is refused, and the offers held stay the same. -/
theorem C22_expired_refused (hord : ∀ dm, (order dm).Perm dm) (hordE : ∀ st, (orderE st).Perm st) (h : List (Clock × Op)) (t : Clock)
    (o : CidOffer) (m m' : Mgr CidOffer) (outs : List Out) (out : Out) (op : Op) (hop : op = .addGroup o ∨ op = .addDht o)
    (hh : SaneHistory H512 (h ++ [(t, op)])) (ho : Ordered h t) (he : execAll H512 order orderE newMgr h = .ok (m, outs))
    (hacc : ∀ o', AcceptedGroup h outs o' ∨ AcceptedDht h outs o' → terms o' ≠ terms o) (hex : expired o t = true)
    (hx : exec H512 order orderE t m op = .ok (m', out)) : out = .done false ∧ m'.dht = m.dht ∧ m'.group = m.group := by
  have hsub : ∀ x ∈ allAdded h, x ∈ allAdded (h ++ [(t, op)]) := by
    intro x hx
    simp only [allAdded, List.flatMap_append, List.mem_append] at hx ⊢
    exact Or.inl hx
  have hoin : o ∈ allAdded (h ++ [(t, op)]) := by rcases hop with rfl | rfl <;> simp [allAdded, added]
  obtain ⟨s, hk, hs⟩ := history_state H512 order orderE hord hordE hh.2.2 (fun x hx => ⟨hsub x hx, hh.1 x (hsub x hx)⟩)
    (fun e he => hh.2.1 e (by simp [he])) ho he
  have hg : ∀ x ∈ s.group, terms x ≠ terms o := fun x hx => hacc x (Or.inl (hk.group.only x hx))
  have hd : ∀ x ∈ s.dht, terms x ≠ terms o := fun x hx => hacc x (Or.inr (hk.dht.only x hx))
  have hshelve : ∀ acc : List CidOffer, (∀ x ∈ acc, terms x ≠ terms o) → shelve t acc o = (acc, false) := by
    intro acc hno
    unfold shelve
    rw [if_neg (fun h => by
      obtain ⟨x, h1, h2⟩ := (any_terms_iff _ _).1 h
      exact hno x h1 h2), if_pos hex]
  have hnc : ∀ acc : List CidOffer, (∀ x ∈ acc, x ∈ allAdded (h ++ [(t, op)])) → NoCollision H512 (o :: acc) := by
    intro acc hsubacc
    refine noCollision_sub hh.2.2 ?_
    intro y hy
    rcases List.mem_cons.1 hy with rfl | hy
    · exact hoin
    · exact hsubacc y hy
  rcases hop with rfl | rfl
  · by_cases hlen : o.cids.length ≤ 1
    · rw [(C22_kinds H512 order orderE t m o).1 hlen] at hx
      cases hx
      exact ⟨rfl, rfl, rfl⟩
    · obtain ⟨g, e1, _, e3⟩ := add_rep (t := t) hs.group (hh.1 o hoin) (by intro h; simp [h] at hlen) (hnc _ hs.subG)
      rw [hshelve _ hg] at e1 e3
      obtain rfl := e3 rfl
      have : addGroup H512 id t m o = .ok (m, false) := by
        unfold addGroup
        rw [if_neg (by simpa using hlen)]
        simp only [bind, Except.bind, pure, Except.pure, e1]
      simp only [exec, this, bind, Except.bind, pure, Except.pure] at hx
      cases hx
      exact ⟨rfl, rfl, rfl⟩
  · by_cases hlen : o.cids.length ≠ 1
    · rw [(C22_kinds H512 order orderE t m o).2 hlen] at hx
      cases hx
      exact ⟨rfl, rfl, rfl⟩
    · obtain ⟨c, hoc⟩ : ∃ c, o.cids = [c] := by
        match hc : o.cids, (show o.cids.length = 1 by omega) with
        | [c], _ => exact ⟨c, rfl⟩
      obtain ⟨g, e1, _, e3⟩ := add_rep (t := t) hs.dht (hh.1 o hoin) (by rw [hoc]; simp) (hnc _ hs.subD)
      rw [hshelve _ hd] at e1 e3
      obtain rfl := e3 rfl
      have : exec H512 order orderE t m (.addDht o) = (Ring.insert m.ring (Ids.toStr c)).map (fun r => ({ m with ring := r }, Out.done false)) := by
        have : addDht H512 id t m o = (Ring.insert m.ring (Ids.toStr c)).map (fun r => ({ m with ring := r }, false)) := by
          unfold addDht
          split
          · rename_i c' h
            simp only [id, hoc, List.cons.injEq, and_true] at h
            subst h
            cases Ring.insert m.ring (Ids.toStr c) <;> simp only [bind, Except.bind, pure, Except.pure, e1, Except.map]
          · rename_i h
            exact absurd (show (id o).cids = [c] from hoc) (h c)
        simp only [exec, this]
        cases Ring.insert m.ring (Ids.toStr c) <;> rfl
      rw [this] at hx
      cases hr : Ring.insert m.ring (Ids.toStr c) with
      | error f => rw [hr] at hx; cases hx
      | ok r =>
        rw [hr] at hx
        cases hx
        exact ⟨rfl, rfl, rfl⟩

/-- In the example history the group offer is added twice with success, and refused once expired. -/
example : terms (exGroup 3 5 1500) = terms (exGroup 3 5 1500) ∧ expired (exGroup 3 5 1500) ⟨1001, 0⟩ = false ∧
    expired (exGroup 3 5 1500) ⟨1600, 0⟩ = true ∧ AcceptedGroup (exHistory.take 3) [.done true, .done true, .done true] (exGroup 3 5 1500) :=
  ⟨rfl, by decide +kernel, by decide +kernel, ⟨1001, 0⟩, by simp [exHistory]⟩

/-! ## C24, C69 range listing -/

/-- On the clockwise arc from `a` to `b`. -/
def OnArc (a b c : Id) : Prop := Ring.cw (position a) (position c) ≤ Ring.cw (position a) (position b)

theorem listings_mem {t : Clock} {acc : List CidOffer} : ∀ {es : List Id} {full : List CidOffer}, Listings t acc es full →
    ∀ o, o ∈ full ↔ ∃ c ∈ es, o ∈ listing t acc c
  | [], full, h, o => by
    rw [show full = [] from h]; simp
  | c :: cs, full, ⟨l, rest, h1, h2, h3⟩, o => by
    subst h3
    rw [List.mem_append, h1.mem_iff, listings_mem h2 o]
    simp

theorem listings_once {t : Clock} {acc : List CidOffer} (hone : ∀ o ∈ acc, ∃ c, o.cids = [c])
    (hd : acc.Pairwise (fun o o' => terms o ≠ terms o')) : ∀ {es : List Id} {full : List CidOffer}, es.Nodup →
    Listings t acc es full → (full.map terms).Nodup
  | [], full, _, h => by rw [show full = [] from h]; simp
  | c :: cs, full, hn, ⟨l, rest, h1, h2, h3⟩ => by
    subst h3
    rw [List.nodup_cons] at hn
    rw [List.map_append, List.nodup_append]
    refine ⟨?_, listings_once hone hd hn.2 h2, ?_⟩
    · rw [(h1.map terms).nodup_iff]
      unfold List.Nodup
      rw [List.pairwise_map]
      exact hd.sublist List.filter_sublist
    · intro x hx y hy
      obtain ⟨o, ho, rfl⟩ := List.mem_map.1 hx
      obtain ⟨o', ho', rfl⟩ := List.mem_map.1 hy
      intro e
      obtain ⟨c', hc', hm⟩ := (listings_mem h2 o').1 ho'
      have g1 := List.mem_filter.1 (h1.mem_iff.1 ho)
      have g2 := List.mem_filter.1 hm
      simp only [Bool.and_eq_true, decide_eq_true_eq, Bool.not_eq_true'] at g1 g2
      obtain ⟨x1, hx1⟩ := hone o g1.1
      obtain ⟨x2, hx2⟩ := hone o' g2.1
      have e1 : o.cids = o'.cids := by
        unfold terms at e
        simp only [Prod.mk.injEq] at e
        exact e.2.1
      have g3 := g1.2.1
      have g4 := g2.2.1
      rw [e1, hx2] at g3
      rw [hx2] at g4
      simp at g3 g4
      exact hn.1 (by rw [g3, ← g4]; exact hc')

theorem listings_sorted {t : Clock} {acc : List CidOffer} {a : Id} (hone : ∀ o ∈ acc, ∃ c, o.cids = [c]) :
    ∀ {es : List Id} {full : List CidOffer},
    es.Pairwise (fun c d => Ring.cw (position a) (position c) < Ring.cw (position a) (position d)) → Listings t acc es full →
    full.Pairwise (fun o o' => ∀ c c', o.cids = [c] → o'.cids = [c'] → Ring.cw (position a) (position c) ≤ Ring.cw (position a) (position c'))
  | [], full, _, h => by rw [show full = [] from h]; simp
  | c :: cs, full, hn, ⟨l, rest, h1, h2, h3⟩ => by
    subst h3
    rw [List.pairwise_cons] at hn
    rw [List.pairwise_append]
    have hl : ∀ o ∈ l, o.cids = [c] := by
      intro o ho
      have g := List.mem_filter.1 (h1.mem_iff.1 ho)
      simp only [Bool.and_eq_true, decide_eq_true_eq, Bool.not_eq_true'] at g
      obtain ⟨x, hx⟩ := hone o g.1
      have g2 := g.2.1
      rw [hx] at g2 ⊢
      simp at g2
      rw [g2]
    refine ⟨?_, listings_sorted hone hn.2 h2, ?_⟩
    · refine List.Pairwise.imp_of_mem (R := fun _ _ => True) ?_ (List.pairwise_of_forall (fun _ _ => trivial))
      intro o o' ho ho' _ x y hx hy
      rw [hl o ho] at hx
      rw [hl o' ho'] at hy
      cases hx; cases hy
      exact Nat.le_refl _
    · intro o ho o' ho' x y hx hy
      rw [hl o ho] at hx
      cases hx
      obtain ⟨c', hc', hm⟩ := (listings_mem h2 o').1 ho'
      have g := List.mem_filter.1 hm
      simp only [Bool.and_eq_true, decide_eq_true_eq, Bool.not_eq_true'] at g
      have g2 := g.2.1
      rw [hy] at g2
      simp at g2
      rw [← g2]
      exact Nat.le_of_lt (hn.1 c' hc')

/-- **C24 (partial).** After a history that left the ring intact, a range listing with different bounds returns only accepted,
unexpired DHT offers on the arc, each once, clockwise, at most `limit` of them if `limit ≥ 1`; and all of them if there are
fewer than the limit.  Missing: histories with a range query below all CIDs, and equal bounds, see the refutations. -/
theorem C24_range_partial (hord : ∀ dm, (order dm).Perm dm) (hordE : ∀ st, (orderE st).Perm st) (h : List (Clock × Op)) (t : Clock)
    (a b : Id) (max : Int) (hh : SaneHistory H512 (h ++ [(t, .range a b max)])) (ho : Ordered h t) (hs : AllSafe [] h) (hab : a ≠ b) :
    ∃ m outs l f, execAll H512 order orderE newMgr (h ++ [(t, .range a b max)]) = .ok (m, outs ++ [.offers l f]) ∧
      (f = true ↔ l ≠ []) ∧
      (∀ o ∈ l, AcceptedDht h outs o ∧ expired o t = false ∧ ∃ c, o.cids = [c] ∧ OnArc a b c) ∧
      (l.map terms).Nodup ∧
      l.Pairwise (fun o o' => ∀ c c', o.cids = [c] → o'.cids = [c'] → Ring.cw (position a) (position c) ≤ Ring.cw (position a) (position c')) ∧
      (1 ≤ max → (l.length : Int) ≤ max) ∧
      ((l.length : Int) < max → ∀ o c, AcceptedDht h outs o → expired o t = false → o.cids = [c] → OnArc a b c →
        ∃ o' ∈ l, terms o' = terms o) ∧
      (max ≤ 1 → ∀ o c, AcceptedDht h outs o → expired o t = false → o.cids = [c] → OnArc a b c → l.length = 1) := by
  have hsub : ∀ x ∈ allAdded h, x ∈ allAdded (h ++ [(t, .range a b max)]) := by
    intro x hx
    simp only [allAdded, List.flatMap_append, List.mem_append] at hx ⊢
    exact Or.inl hx
  obtain ⟨m, outs, s, e1, e2, e3, e4⟩ := steps_strict (order := order) (orderE := orderE) hord hordE hh.2.2 h (sinv_new _) ringInv_new
    (fun e he o ho => ⟨hsub o (List.mem_flatMap.2 ⟨e, he, ho⟩), hh.1 o (hsub o (List.mem_flatMap.2 ⟨e, he, ho⟩))⟩)
    (fun e he => hh.2.1 e (by simp [he])) hs
  have hk := keepsAll_history ho (steps_loosen h e2)
  have hpr : Proper a ∧ Proper b := hh.2.1 (t, .range a b max) (by simp)
  obtain ⟨m', out, s', f1, f2, _⟩ := sim_strict (order := order) (orderE := orderE) (t := t) (op := .range a b max) hord hordE hh.2.2 e3 e4
    (by simp [added]) hpr (fun a' b' max' h => by cases h; exact hab)
  obtain ⟨es, full, visited, found, g1, _, rfl, _, g2⟩ := f2
  obtain ⟨⟨g3, g4⟩, g5⟩ := g2 rfl
  have hone : ∀ o ∈ s.dht, ∃ c, o.cids = [c] := fun o ho => by obtain ⟨c, _, h⟩ := hk.one o ho; exact ⟨c, h⟩
  have hnd : es.Nodup := by
    unfold List.Nodup
    exact g4.imp (fun h e => by rw [e] at h; omega)
  -- which accepted offers occur in the whole listing
  have hcomplete : ∀ o c, AcceptedDht h outs o → expired o t = false → o.cids = [c] → OnArc a b c → ∃ o' ∈ full, terms o' = terms o := by
    intro o c h1 h2 h3 h4
    obtain ⟨o', h5, h6⟩ := hk.dht.all o h1 t (le_refl t) hk.dht.sane h2
    refine ⟨o', (listings_mem g1 o').2 ⟨c, ?_, ?_⟩, h6⟩
    · obtain ⟨t', h1'⟩ := h1
      obtain ⟨c', hc1, hc2⟩ := hk.dhtOnly o t' h1'
      rw [h3] at hc2
      cases hc2
      exact (g3 c).2 ⟨hc1, h4⟩
    · refine List.mem_filter.2 ⟨h5, ?_⟩
      have : o'.cids = o.cids := by
        unfold terms at h6
        simp only [Prod.mk.injEq] at h6
        exact h6.2.1
      rw [expired_terms h6, h2, this, h3]
      simp
  refine ⟨m', outs, full.take (limit max), found, ?_, ?_, ?_, ?_, ?_, ?_, ?_, ?_⟩
  · rw [execAll_append]
    simp only [e1, bind, Except.bind, execAll, f1, pure, Except.pure]
  · rw [g5]
    have := take_isEmpty full max
    cases hf : full.take (limit max) with
    | nil => rw [hf] at this; simp [← this]
    | cons x xs => rw [hf] at this; simp [← this]
  · intro o hm
    obtain ⟨c, h1, h2⟩ := (listings_mem g1 o).1 (List.mem_of_mem_take hm)
    have h3 := List.mem_filter.1 h2
    simp only [Bool.and_eq_true, decide_eq_true_eq, Bool.not_eq_true'] at h3
    refine ⟨hk.dht.only o h3.1, h3.2.2, ?_⟩
    obtain ⟨x, hx⟩ := hone o h3.1
    have h4 := h3.2.1
    rw [hx] at h4
    simp at h4
    exact ⟨x, hx, by rw [← h4]; exact ((g3 c).1 h1).2⟩
  · exact (listings_once hone hk.dht.once hnd g1).sublist (List.Sublist.map _ (List.take_sublist _ _))
  · exact (listings_sorted hone g4 g1).sublist (List.take_sublist _ _)
  · intro hmax
    rw [List.length_take]
    unfold limit
    split <;> omega
  · intro hlt o c h1 h2 h3 h4
    obtain ⟨o', h5, h6⟩ := hcomplete o c h1 h2 h3 h4
    refine ⟨o', ?_, h6⟩
    rw [List.take_of_length_le]
    · exact h5
    · rw [List.length_take] at hlt
      unfold limit at hlt ⊢
      by_cases hm : max ≤ 1
      · rw [if_pos hm] at hlt ⊢; omega
      · rw [if_neg hm] at hlt ⊢; omega
  · intro hmax o c h1 h2 h3 h4
    obtain ⟨o', h5, _⟩ := hcomplete o c h1 h2 h3 h4
    have : limit max = 1 := by unfold limit; rw [if_pos hmax]
    rw [this, List.length_take]
    have := List.length_pos_of_mem h5
    omega

example : AllSafe [] exHistory ∧ (exId 4 : Id) ≠ exId 6 ∧ AcceptedDht (exHistory.take 2) [.done true, .done true] (exDht 5 2000) ∧
    OnArc (exId 4) (exId 6) (exId 5) ∧ ¬ OnArc (exId 4) (exId 6) (exId 3) :=
  ⟨exHistory_safe, by decide +kernel, ⟨⟨1000, 1⟩, by simp [exHistory]⟩, by unfold OnArc; decide +kernel, by unfold OnArc; decide +kernel⟩

/-- A history in which a bound of a range query lies before all CIDs offered. -/
def exLow : List (Clock × Op) :=
  [(⟨1000, 0⟩, .addDht (exDht 3 2000)), (⟨1000, 0⟩, .addDht (exDht 5 2000)), (⟨1000, 0⟩, .range (exId 6) (exId 2) 10),
   (⟨1000, 0⟩, .range (exId 1) (exId 2) 10)]

/-- **C24 (refuted).** After a listing whose bounds lie low, the listing from 1 to 2 returns the offers of the contents 3 and 5. -/
theorem C24_range_refuted :
    (execAll (fun b => b) (fun l => l) (fun l => l) newMgr exLow).map (·.2) =
      .ok [.done true, .done true, .offers [] false, .offers [exDht 3 2000, exDht 5 2000] true] ∧
    ¬ OnArc (exId 1) (exId 2) (exId 3) ∧ ¬ OnArc (exId 1) (exId 2) (exId 5) :=
  ⟨by decide +kernel, by unfold OnArc; decide +kernel, by unfold OnArc; decide +kernel⟩

/-- **C24 (refuted).** Offers are also missed: of three identical listings the last finds nothing. -/
theorem C24_missed_refuted :
    (execAll (fun b => b) (fun l => l) (fun l => l) newMgr
      [(⟨1000, 0⟩, .addDht (exDht 3 2000)), (⟨1000, 0⟩, .addDht (exDht 5 2000)), (⟨1000, 0⟩, .range (exId 1) (exId 2) 10),
       (⟨1000, 0⟩, .range (exId 0) (exId 9) 10), (⟨1000, 0⟩, .range (exId 0) (exId 9) 10)]).map (·.2) =
      .ok [.done true, .done true, .offers [] false, .offers [exDht 3 2000, exDht 5 2000] true, .offers [] false] := by
  decide +kernel

/-- **C24 (refuted).** With equal bounds the listing goes all the way round and starts again, or crashes if only one content
has been offered. -/
theorem C24_equal_bounds_refuted :
    (execAll (fun b => b) (fun l => l) (fun l => l) newMgr
      [(⟨1000, 0⟩, .addDht (exDht 3 2000)), (⟨1000, 0⟩, .addDht (exDht 5 2000)), (⟨1000, 0⟩, .range (exId 3) (exId 3) 10)]).map (·.2) =
      .ok [.done true, .done true, .offers [exDht 3 2000, exDht 5 2000, exDht 3 2000] true] ∧
    (execAll (fun b => b) (fun l => l) (fun l => l) newMgr
      [(⟨1000, 0⟩, .addDht (exDht 3 2000)), (⟨1000, 0⟩, .range (exId 3) (exId 3) 10)]).map (·.2) = .error .panic :=
  ⟨by decide +kernel, by decide +kernel⟩

/-- **C69 (refuted).** With a limit of zero or less exactly one offer is listed whenever there is one to list. -/
theorem C69_nonpositive_limit_refuted (hord : ∀ dm, (order dm).Perm dm) (hordE : ∀ st, (orderE st).Perm st) (h : List (Clock × Op))
    (t : Clock) (a b : Id) (max : Int) (hh : SaneHistory H512 (h ++ [(t, .range a b max)])) (ho : Ordered h t) (hs : AllSafe [] h)
    (hab : a ≠ b) (hmax : max ≤ 0) (m : Mgr CidOffer) (outs : List Out) (out : Out)
    (he : execAll H512 order orderE newMgr (h ++ [(t, .range a b max)]) = .ok (m, outs ++ [out]))
    (o : CidOffer) (c : Id) (h1 : AcceptedDht h outs o) (h2 : expired o t = false) (h3 : o.cids = [c]) (h4 : OnArc a b c) :
    ∃ x, out = .offers [x] true := by
  obtain ⟨m', outs', l, f, e1, e2, _, _, _, _, _, e3⟩ := C24_range_partial H512 order orderE hord hordE h t a b max hh ho hs hab
  rw [he] at e1
  simp only [Except.ok.injEq, Prod.mk.injEq] at e1
  obtain ⟨_, e1⟩ := e1
  obtain ⟨rfl, e4⟩ := List.append_inj' e1 rfl
  simp at e4
  have := e3 (by omega) o c h1 h2 h3 h4
  match l, this with
  | [x], _ => exact ⟨x, by rw [e4, e2.2 (by simp)]⟩

example : (execAll (fun b => b) (fun l => l) (fun l => l) newMgr
      [(⟨1000, 0⟩, .addDht (exDht 3 2000)), (⟨1000, 0⟩, .addDht (exDht 5 2000)), (⟨1000, 0⟩, .range (exId 3) (exId 9) (-7))]).map (·.2) =
      .ok [.done true, .done true, .offers [exDht 3 2000] true] := by decide +kernel

/-! ## C25 lookup by digest -/

/-- **C25.** What `GetOfferByDigest` finds was accepted and has the digest; it finds something whenever an accepted, unexpired
offer has the digest; and what it finds then has the terms of that offer. -/
theorem C25_by_digest (hord : ∀ dm, (order dm).Perm dm) (hordE : ∀ st, (orderE st).Perm st) (h : List (Clock × Op)) (t : Clock)
    (d : Bytes) (m : Mgr CidOffer) (outs : List Out) (hh : SaneHistory H512 (h ++ [(t, .byDigest d)])) (ho : Ordered h t)
    (he : execAll H512 order orderE newMgr (h ++ [(t, .byDigest d)]) = .ok (m, outs)) :
    ∃ outs0 r, outs = outs0 ++ [.one r] ∧
      (∀ o, r = some o → (AcceptedDht h outs0 o ∨ AcceptedGroup h outs0 o) ∧ Offer.digest H512 o = .ok d) ∧
      (∀ o, AcceptedDht h outs0 o ∨ AcceptedGroup h outs0 o → expired o t = false → Offer.digest H512 o = .ok d →
        ∃ o', r = some o' ∧ terms o' = terms o) := by
  obtain ⟨outs0, out, s, s', rfl, hk, _, r, rfl, h1⟩ := last_call H512 order orderE hord hordE hh ho he
  refine ⟨outs0, r, rfl, ?_, ?_⟩
  · rintro o rfl
    refine ⟨?_, h1.1⟩
    rcases h1.2 with h | ⟨h, _⟩
    · exact Or.inl (hk.dht.only o h)
    · exact Or.inr (hk.group.only o h)
  · intro o hacc hun hd
    have hex : ∃ o', (o' ∈ s.dht ∨ o' ∈ s.group) ∧ terms o' = terms o := by
      rcases hacc with hacc | hacc
      · obtain ⟨o', h2, h3⟩ := hk.dht.all o hacc t (le_refl t) hk.dht.sane hun
        exact ⟨o', Or.inl h2, h3⟩
      · obtain ⟨o', h2, h3⟩ := hk.group.all o hacc t (le_refl t) hk.dht.sane hun
        exact ⟨o', Or.inr h2, h3⟩
    have hdig : ∀ {o o' : CidOffer}, terms o' = terms o → Offer.digest H512 o' = Offer.digest H512 o := by
      intro o o' h
      unfold Offer.digest Offer.digestInput
      unfold terms at h
      simp only [Prod.mk.injEq] at h
      rw [h.1, h.2.1, h.2.2.1, h.2.2.2.1, h.2.2.2.2]
    obtain ⟨o', h2, h3⟩ := hex
    cases r with
    | none =>
      exact absurd ((hdig h3).trans hd) (h1 o' h2)
    | some x =>
      refine ⟨x, rfl, ?_⟩
      have hxacc : AcceptedDht h outs0 x ∨ AcceptedGroup h outs0 x := by
        rcases h1.2 with h | ⟨h, _⟩
        · exact Or.inl (hk.dht.only x h)
        · exact Or.inr (hk.group.only x h)
      have hin : ∀ y, AcceptedDht h outs0 y ∨ AcceptedGroup h outs0 y → y ∈ allAdded (h ++ [(t, .byDigest d)]) := by
        rintro y (⟨t', hy⟩ | ⟨t', hy⟩)
        · have := (List.of_mem_zip hy).1
          exact List.mem_flatMap.2 ⟨_, List.mem_append.2 (Or.inl this), by simp [added]⟩
        · have := (List.of_mem_zip hy).1
          exact List.mem_flatMap.2 ⟨_, List.mem_append.2 (Or.inl this), by simp [added]⟩
      exact (Offer.C16_digest_identifies H512 x o (hh.1 x (hin x hxacc)) (hh.1 o (hin o hacc))
        (hh.2.2 x (hin x hxacc) o (hin o hacc))).1 (by rw [h1.1, hd])

/-- **C25.** Digests of offers never accepted are not found. -/
theorem C25_unknown_digest (hord : ∀ dm, (order dm).Perm dm) (hordE : ∀ st, (orderE st).Perm st) (h : List (Clock × Op)) (t : Clock)
    (d : Bytes) (m : Mgr CidOffer) (outs : List Out) (hh : SaneHistory H512 (h ++ [(t, .byDigest d)])) (ho : Ordered h t)
    (he : execAll H512 order orderE newMgr (h ++ [(t, .byDigest d)]) = .ok (m, outs))
    (hno : ∀ o ∈ allAdded h, Offer.digest H512 o ≠ .ok d) : outs.getLast? = some (.one none) := by
  obtain ⟨outs0, r, rfl, h1, _⟩ := C25_by_digest H512 order orderE hord hordE h t d m outs hh ho he
  cases r with
  | none => simp
  | some o =>
    exfalso
    obtain ⟨h2, h3⟩ := h1 o rfl
    rcases h2 with ⟨t', hy⟩ | ⟨t', hy⟩
    · exact hno o (List.mem_flatMap.2 ⟨_, (List.of_mem_zip hy).1, by simp [added]⟩) h3
    · exact hno o (List.mem_flatMap.2 ⟨_, (List.of_mem_zip hy).1, by simp [added]⟩) h3

example : (execAll (fun b => b) (fun l => l) (fun l => l) newMgr
      [(⟨1000, 0⟩, .addDht (exDht 3 2000)), (⟨1000, 0⟩, .addGroup (exGroup 3 5 1500)),
       (⟨1000, 0⟩, .byDigest (exId 9 ++ exId 3 ++ exId 5 ++ be64 5 ++ be64 1500 ++ be64 3)), (⟨1000, 0⟩, .byDigest [])]).map (·.2) =
      .ok [.done true, .done true, .one (some (exGroup 3 5 1500)), .one none] := by decide +kernel

end FcRetrieval.OfferMgr
