import Verif.Lemmas.OfferMgrRing
/-! Helper lemmas: every call of the offer manager does what the specification says. -/
set_option linter.unusedSimpArgs false
namespace FcRetrieval.OfferMgr
open FcRetrieval.Ids (Id Proper position)
open FcRetrieval.Merkle (Hash)
open FcRetrieval.Offer (CidOffer terms InRange)
open FcRetrieval.Ring (Fault Ring)

/-- The maps hold what is on the shelf, all of it from `A`. -/
structure SInv (H512 : Hash) (A : List CidOffer) (m : Mgr CidOffer) (s : Shelf) : Prop where
  dht : Rep H512 m.dht s.dht
  group : Rep H512 m.group s.group
  subD : ∀ o ∈ s.dht, o ∈ A
  subG : ∀ o ∈ s.group, o ∈ A

theorem shelve_sub {t : Clock} {acc A : List CidOffer} {o : CidOffer} (h : ∀ x ∈ acc, x ∈ A) (ho : o ∈ A) :
    ∀ x ∈ (shelve t acc o).1, x ∈ A := by
  unfold shelve
  split
  · exact h
  · split
    · exact h
    · intro x hx
      rcases List.mem_append.1 hx with hx | hx
      · exact h x hx
      · simp at hx; rw [hx]; exact ho

theorem noCollision_sub {H512 : Hash} {A B : List CidOffer} (h : NoCollision H512 A) (hs : ∀ x ∈ B, x ∈ A) : NoCollision H512 B :=
  fun o ho o' ho' => h o (hs o ho) o' (hs o' ho')

theorem purge_sub {t : Clock} {acc A : List CidOffer} {c : Id} (h : ∀ x ∈ acc, x ∈ A) : ∀ x ∈ purge t acc c, x ∈ A :=
  fun x hx => h x (List.mem_filter.1 hx).1

theorem purges_sub {t : Clock} {A : List CidOffer} : ∀ (cs : List Id) (acc : List CidOffer), (∀ x ∈ acc, x ∈ A) →
    ∀ x ∈ cs.foldl (purge t) acc, x ∈ A
  | [], _, h => h
  | _ :: cs, _, h => purges_sub cs _ (purge_sub h)

theorem findSome_rep {H512 : Hash} {orderE : Storage CidOffer → Storage CidOffer} (hord : ∀ st, (orderE st).Perm st)
    {st : Storage CidOffer} {acc : List CidOffer} (hr : Rep H512 st acc) (d : Bytes) :
    match (orderE st).findSome? (fun e => mget e.2 d) with
    | some o => o ∈ acc ∧ Offer.digest H512 o = .ok d
    | none => ∀ o ∈ acc, Offer.digest H512 o ≠ .ok d := by
  cases h : (orderE st).findSome? (fun e => mget e.2 d) with
  | some o =>
    obtain ⟨⟨c, dm⟩, h1, h2⟩ := List.exists_of_findSome?_eq_some h
    have h3 := (mem_mget hr.wf.keys).1 ((hord st).mem_iff.1 h1)
    obtain ⟨h4, h5, _⟩ := (hr.mem c d o).1 (by simp [at?, h3, h2])
    exact ⟨h4, h5⟩
  | none =>
    rw [List.findSome?_eq_none_iff] at h
    intro o ho hd
    obtain ⟨c, hc⟩ := List.exists_mem_of_ne_nil _ (hr.some_cid o ho)
    have h1 := (hr.mem (Ids.toStr c) d o).2 ⟨ho, hd, List.mem_map.2 ⟨c, hc, rfl⟩⟩
    unfold at? at h1
    cases h2 : mget st (Ids.toStr c) with
    | none => rw [h2] at h1; simp at h1
    | some dm =>
      rw [h2] at h1
      have := h (Ids.toStr c, dm) ((hord st).mem_iff.2 (mget_some_mem h2))
      simp only [Option.bind_some] at h1
      rw [h1] at this
      cases this

/-- Operations that do not touch the ring. -/
def offRing : Op → Bool
  | .addDht o => decide (o.cids.length ≠ 1)
  | .range _ _ _ => false
  | _ => true

variable {H512 : Hash} {order : DigestMap CidOffer → DigestMap CidOffer} {orderE : Storage CidOffer → Storage CidOffer}
  {A : List CidOffer} {t : Clock} {m : Mgr CidOffer} {s : Shelf}

theorem sim_offRing (hord : ∀ dm, (order dm).Perm dm) (hordE : ∀ st, (orderE st).Perm st) (hA : NoCollision H512 A)
    (hs : SInv H512 A m s) {op : Op} (hop : ∀ o ∈ added op, o ∈ A ∧ InRange o) (hp : ProperOp op) (ho : offRing op = true) :
    ∃ m' out s', exec H512 order orderE t m op = .ok (m', out) ∧ Step H512 true t s op out s' ∧ SInv H512 A m' s' ∧
      m'.ring = m.ring ∧ s'.offered = s.offered := by
  cases op with
  | addGroup o =>
    obtain ⟨hoA, hoR⟩ := hop o (by simp [added])
    by_cases hl : o.cids.length ≤ 1
    · refine ⟨m, .done false, s, ?_, ?_, hs, rfl, rfl⟩
      · simp only [exec, addGroup, id, if_pos hl, bind, Except.bind, pure, Except.pure]
      · simp only [Step, if_pos hl, and_self]
    · obtain ⟨g, e1, e2, _⟩ := add_rep (t := t) hs.group hoR (by intro h; simp [h] at hl)
        (noCollision_sub hA (by
          intro x hx
          rcases List.mem_cons.1 hx with rfl | hx
          · exact hoA
          · exact hs.subG x hx))
      refine ⟨{ m with group := g }, .done (shelve t s.group o).2, { s with group := (shelve t s.group o).1 }, ?_, ?_, ⟨hs.dht, e2, hs.subD, shelve_sub hs.subG hoA⟩, rfl, ?_⟩
      · have : addGroup H512 id t m o = .ok ({ m with group := g }, (shelve t s.group o).2) := by
          unfold addGroup
          rw [if_neg (by simpa using hl)]
          simp only [bind, Except.bind, pure, Except.pure, e1]
        simp only [exec, this, bind, Except.bind, pure, Except.pure]
      · simp only [Step, if_neg hl, and_self]
      · rfl
  | addDht o =>
    have hl : o.cids.length ≠ 1 := by simpa [offRing] using ho
    refine ⟨m, .done false, s, ?_, ?_, hs, rfl, rfl⟩
    · have : addDht H512 id t m o = .ok (m, false) := by
        unfold addDht
        split
        · rename_i h; simp only [id] at h; rw [h] at hl; simp at hl
        · rfl
      simp only [exec, this, bind, Except.bind, pure, Except.pure]
    · simp only [Step]
      split
      · rename_i h; rw [h] at hl; simp at hl
      · simp
  | getGroup c =>
    obtain ⟨g, l, e1, e2, e3⟩ := get_rep (t := t) hord hs.group (show Proper c from hp)
    refine ⟨{ m with group := g }, _, _, ?_, ⟨l, e2, rfl, rfl⟩, ⟨hs.dht, e3, hs.subD, purge_sub hs.subG⟩, rfl, rfl⟩
    simp only [exec, getGroup, bind, Except.bind, pure, Except.pure, e1, decide_pos_isEmpty]
  | getDht c =>
    obtain ⟨g, l, e1, e2, e3⟩ := get_rep (t := t) hord hs.dht (show Proper c from hp)
    refine ⟨{ m with dht := g }, _, _, ?_, ⟨l, e2, rfl, rfl⟩, ⟨e3, hs.group, purge_sub hs.subD, hs.subG⟩, rfl, rfl⟩
    simp only [exec, getDht, bind, Except.bind, pure, Except.pure, e1, decide_pos_isEmpty]
  | getOffers c =>
    obtain ⟨g, l, e1, e2, e3⟩ := get_rep (t := t) hord hs.group (show Proper c from hp)
    obtain ⟨g', l', f1, f2, f3⟩ := get_rep (t := t) hord hs.dht (show Proper c from hp)
    refine ⟨{ m with group := g, dht := g' }, _, _, ?_, ⟨l, l', e2, f2, rfl, rfl⟩,
      ⟨f3, e3, purge_sub hs.subD, purge_sub hs.subG⟩, rfl, rfl⟩
    simp only [exec, getOffers, bind, Except.bind, pure, Except.pure, e1, f1, decide_pos_isEmpty]
  | range a b max => simp [offRing] at ho
  | byDigest d =>
    refine ⟨m, .one (getByDigest orderE m d), s, rfl, ⟨rfl, _, rfl, ?_⟩, hs, rfl, rfl⟩
    have h1 := findSome_rep hordE hs.dht d
    have h2 := findSome_rep hordE hs.group d
    unfold getByDigest
    cases e1 : (orderE m.dht).findSome? (fun e => mget e.2 d) with
    | some o =>
      rw [e1] at h1
      exact ⟨h1.2, Or.inl h1.1⟩
    | none =>
      rw [e1] at h1
      cases e2 : (orderE m.group).findSome? (fun e => mget e.2 d) with
      | some o =>
        rw [e2] at h2
        exact ⟨h2.2, Or.inr ⟨h2.1, h1⟩⟩
      | none =>
        rw [e2] at h2
        rintro o (ho | ho)
        · exact h1 o ho
        · exact h2 o ho

/-- A one-CID offer added as DHT offer, whatever the state of the ring. -/
theorem sim_addDht (hA : NoCollision H512 A) (hs : SInv H512 A m s) {o : CidOffer} {c : Id} (hc : o.cids = [c]) (hoA : o ∈ A)
    (hoR : InRange o) {r : Ring} (hr : Ring.insert m.ring (Ids.toStr c) = .ok r) :
    ∃ m' out s', exec H512 order orderE t m (.addDht o) = .ok (m', out) ∧ Step H512 true t s (.addDht o) out s' ∧
      SInv H512 A m' s' ∧ m'.ring = r ∧ s'.offered = c :: s.offered := by
  obtain ⟨g, e1, e2, _⟩ := add_rep (t := t) hs.dht hoR (by rw [hc]; simp) (noCollision_sub hA (by
    intro x hx
    rcases List.mem_cons.1 hx with rfl | hx
    · exact hoA
    · exact hs.subD x hx))
  have he : addDht H512 id t m o = .ok ({ m with dht := g, ring := r }, (shelve t s.dht o).2) := by
    unfold addDht
    split
    · rename_i c' h
      simp only [id, hc, List.cons.injEq, and_true] at h
      subst h
      simp only [bind, Except.bind, pure, Except.pure, hr, e1]
    · rename_i h
      exact absurd (show (id o).cids = [c] from hc) (h c)
  refine ⟨{ m with dht := g, ring := r }, .done (shelve t s.dht o).2,
    { s with dht := (shelve t s.dht o).1, offered := c :: s.offered }, ?_, ?_,
    ⟨e2, hs.group, shelve_sub hs.subD hoA, hs.subG⟩, rfl, rfl⟩
  · simp only [exec, he, bind, Except.bind, pure, Except.pure]
  · simp only [Step, hc, and_self]

/-- A range listing, whatever the state of the ring. -/
theorem sim_range (hord : ∀ dm, (order dm).Perm dm) (hs : SInv H512 A m s) {a b : Id} {max : Int} {r : Ring}
    {entries : List Ring.Hex} (hr : Ring.getWithinRange m.ring (Ids.toStr a) (Ids.toStr b) = .ok (r, .val entries)) :
    ∃ m' es full visited found, exec H512 order orderE t m (.range a b max) = .ok (m', .offers (full.take (limit max)) found) ∧
      Listings t s.dht es full ∧ visited <+: es ∧ SInv H512 A m' { s with dht := visited.foldl (purge t) s.dht } ∧ m'.ring = r ∧
      ∀ es0 : List Id, (∀ c ∈ es0, Proper c) → entries = es0.map Ids.toStr → es = es0 ∧ found = !full.isEmpty := by
  obtain ⟨st', es, full, visited, found, f1, f2, f3, f4, f5⟩ :=
    rangeGo_rep (t := t) (max := max) hord entries m.dht s.dht [] hs.dht (by have := limit_pos max; simp; omega)
  refine ⟨{ m with dht := st', ring := r }, es, full, visited, found, ?_, f2, f3,
    ⟨f4, hs.group, purges_sub _ _ hs.subD, hs.subG⟩, rfl, ?_⟩
  · simp only [List.nil_append] at f1
    simp only [exec, getDhtRange, bind, Except.bind, pure, Except.pure, hr, f1]
  · intro es0 h1 h2
    have := f5 es0 h1 h2
    simpa using this

theorem step_loosen {op : Op} {out : Out} {s' : Shelf} (h : Step H512 true t s op out s') : Step H512 false t s op out s' := by
  cases op <;> try exact h
  obtain ⟨es, full, visited, found, h1, h2, h3, h4, _⟩ := h
  exact ⟨es, full, visited, found, h1, h2, h3, h4, by simp⟩

/-- Any call that returns. -/
theorem sim_loose (hord : ∀ dm, (order dm).Perm dm) (hordE : ∀ st, (orderE st).Perm st) (hA : NoCollision H512 A)
    (hs : SInv H512 A m s) {op : Op} (hop : ∀ o ∈ added op, o ∈ A ∧ InRange o) (hp : ProperOp op) {m' : Mgr CidOffer} {out : Out}
    (he : exec H512 order orderE t m op = .ok (m', out)) :
    ∃ s', Step H512 false t s op out s' ∧ SInv H512 A m' s' := by
  by_cases ho : offRing op = true
  · obtain ⟨m1, out1, s1, e1, e2, e3, _⟩ := sim_offRing (t := t) hord hordE hA hs hop hp ho
    rw [e1] at he
    cases he
    exact ⟨s1, step_loosen e2, e3⟩
  · cases op with
    | addDht o =>
      have hl : o.cids.length = 1 := by simpa [offRing] using ho
      obtain ⟨c, hc⟩ : ∃ c, o.cids = [c] := by
        match h : o.cids, hl with
        | [c], _ => exact ⟨c, rfl⟩
      obtain ⟨h1, h2⟩ := hop o (by simp [added])
      cases hr : Ring.insert m.ring (Ids.toStr c) with
      | error f =>
        exfalso
        have : addDht H512 id t m o = .error f := by
          unfold addDht
          split
          · rename_i c' h
            simp only [id, hc, List.cons.injEq, and_true] at h
            subst h
            simp only [bind, Except.bind, hr]
          · rename_i h
            exact absurd (show (id o).cids = [c] from hc) (h c)
        simp only [exec, this, bind, Except.bind] at he
        cases he
      | ok r =>
        obtain ⟨m1, out1, s1, e1, e2, e3, _⟩ := sim_addDht (order := order) (orderE := orderE) (t := t) hA hs hc h1 h2 hr
        rw [e1] at he
        cases he
        exact ⟨s1, step_loosen e2, e3⟩
    | range a b max =>
      cases hr : Ring.getWithinRange m.ring (Ids.toStr a) (Ids.toStr b) with
      | error f =>
        simp only [exec, getDhtRange, bind, Except.bind, hr] at he
        cases he
      | ok p =>
        obtain ⟨r, res⟩ := p
        cases res with
        | err =>
          simp only [exec, getDhtRange, bind, Except.bind, hr, pure, Except.pure] at he
          cases he
          exact ⟨s, ⟨[], [], [], false, rfl, List.prefix_refl _, by simp, rfl, by simp⟩,
            ⟨hs.dht, hs.group, hs.subD, hs.subG⟩⟩
        | val entries =>
          obtain ⟨m1, es, full, visited, found, e1, e2, e3, e4, _⟩ := sim_range (orderE := orderE) (t := t) (max := max) hord hs hr
          rw [e1] at he
          cases he
          exact ⟨_, ⟨es, full, visited, found, e2, e3, rfl, rfl, by simp⟩, e4⟩
    | _ => simp [offRing] at ho

/-- Any call while the ring is intact. -/
theorem sim_strict (hord : ∀ dm, (order dm).Perm dm) (hordE : ∀ st, (orderE st).Perm st) (hA : NoCollision H512 A)
    (hs : SInv H512 A m s) (hri : RingInv m.ring s.offered) {op : Op} (hop : ∀ o ∈ added op, o ∈ A ∧ InRange o) (hp : ProperOp op)
    (hab : ∀ a b max, op = .range a b max → a ≠ b) :
    ∃ m' out s', exec H512 order orderE t m op = .ok (m', out) ∧ Step H512 true t s op out s' ∧ SInv H512 A m' s' ∧
      s'.offered = (match op with
        | .addDht o => match o.cids with | [c] => c :: s.offered | _ => s.offered
        | _ => s.offered) ∧
      ((∀ a b max, op = .range a b max → Safe s.offered a b) → RingInv m'.ring s'.offered) := by
  by_cases ho : offRing op = true
  · obtain ⟨m1, out1, s1, e1, e2, e3, e4, e5⟩ := sim_offRing (t := t) hord hordE hA hs hop hp ho
    refine ⟨m1, out1, s1, e1, e2, e3, ?_, fun _ => by rw [e4, e5]; exact hri⟩
    rw [e5]
    cases op with
    | addDht o =>
      have hl : o.cids.length ≠ 1 := by simpa [offRing] using ho
      simp only
      split
      · rename_i h; rw [h] at hl; simp at hl
      · rfl
    | _ => rfl
  · cases op with
    | addDht o =>
      have hl : o.cids.length = 1 := by simpa [offRing] using ho
      obtain ⟨c, hc⟩ : ∃ c, o.cids = [c] := by
        match h : o.cids, hl with
        | [c], _ => exact ⟨c, rfl⟩
      obtain ⟨h1, h2⟩ := hop o (by simp [added])
      obtain ⟨r, hr1, hr2⟩ := ringInv_insert hri (h2.2.1 c (by rw [hc]; simp))
      obtain ⟨m1, out1, s1, e1, e2, e3, e4, e5⟩ := sim_addDht (order := order) (orderE := orderE) (t := t) hA hs hc h1 h2 hr1
      exact ⟨m1, out1, s1, e1, e2, e3, by simp only [hc]; exact e5, fun _ => by rw [e4, e5]; exact hr2⟩
    | range a b max =>
      obtain ⟨ha, hb⟩ := (show Proper a ∧ Proper b from hp)
      obtain ⟨r, es0, hr1, hr2, hr3, hr4⟩ := ringInv_range hri ha hb (hab a b max rfl)
      obtain ⟨m1, es, full, visited, found, e1, e2, e3, e4, e5, e6⟩ := sim_range (orderE := orderE) (t := t) (max := max) hord hs hr1
      obtain ⟨g1, g2⟩ := e6 es0 hr2 rfl
      subst g1
      refine ⟨m1, _, _, e1, ⟨es, full, visited, found, e2, e3, rfl, rfl, fun _ => ⟨hr3, g2⟩⟩, e4, rfl, ?_⟩
      intro h
      rw [e5]
      exact hr4 (h a b max rfl)
    | _ => simp [offRing] at ho

end FcRetrieval.OfferMgr
