import Verif.Lemmas.OfferConc
import Verif.Props.OfferMgr
/-!
# C23: adding offers concurrently

The full claim, *for every interleaving, every offer whose addition reported success is found afterwards and no lookup in
between crashes*, is false: see the three `_refuted` theorems.  `C23_partial` proves it for calls that do not meet on a CID
that has no entry yet, while none of the offers being added expires, and without `GetOfferByDigest`.
-/
set_option linter.unusedSimpArgs false
namespace FcRetrieval.OfferMgr.Conc
open FcRetrieval.Ids (Id Proper)
open FcRetrieval.Merkle (Hash exId exId_proper)
open FcRetrieval.Offer (CidOffer terms InRange)

variable (H512 : Hash) (order : DigestMap CidOffer → DigestMap CidOffer)

theorem mget_view (s : Shared) (k : Key) : mget s.view k = (mget s.cidMap k).map s.dmap := by
  unfold Shared.view
  induction s.cidMap with
  | nil => rfl
  | cons e m ih =>
    simp only [List.map_cons, mget]
    split
    · rfl
    · exact ih

theorem removeUnder_total (d : Bytes) : ∀ (cs : List Key) (st : Storage CidOffer), (∀ c ∈ cs, c ∈ mkeys st) →
    ∃ st', removeUnder d cs st = .ok st' ∧ ∀ k ∈ mkeys st, k ∈ mkeys st'
  | [], st, _ => ⟨st, rfl, fun _ h => h⟩
  | c :: cs, st, h => by
    obtain ⟨dm, hdm⟩ := Option.isSome_iff_exists.1 ((mget_isSome_iff st c).2 (h c (by simp)))
    have hk : ∀ k ∈ mkeys st, k ∈ mkeys (mset st c (mdel dm d)) := fun k hk => (mem_mkeys_mset _ _ _ _).2 (Or.inr hk)
    obtain ⟨st', h1, h2⟩ := removeUnder_total d cs (mset st c (mdel dm d)) (fun x hx => hk x (h x (by simp [hx])))
    exact ⟨st', by simp only [removeUnder, hdm, h1], fun k hk' => h2 k (hk k hk')⟩

theorem removeAll_total {H512 : Hash} : ∀ (os : List CidOffer) (st : Storage CidOffer),
    (∀ o ∈ os, (∃ d, digestOf H512 o = .ok d) ∧ ∀ k ∈ keysOf o, k ∈ mkeys st) → ∃ st', removeAll H512 os st = .ok st'
  | [], st, _ => ⟨st, rfl⟩
  | o :: os, st, h => by
    obtain ⟨⟨d, hd⟩, hk⟩ := h o (by simp)
    obtain ⟨st1, h1, h2⟩ := removeUnder_total d (Ids.mapToString o.cids) st hk
    obtain ⟨st2, h3⟩ := removeAll_total os st1 (fun o ho => ⟨(h o (by simp [ho])).1, fun k hk => h2 k ((h o (by simp [ho])).2 k hk)⟩)
    exact ⟨st2, by simp only [removeAll, hd, h1, bind, Except.bind]; exact h3⟩

/-- **C23**, as far as it holds.  `calls` run on a storage at rest, in any interleaving; no call crashes, and when all have
returned every offer whose addition reported success is listed under each of its CIDs by a lookup at any time before it
expires. -/
theorem C23_partial (hord : ∀ dm, (order dm).Perm dm) (s0 : Shared) (acc : List CidOffer) (calls : List Call)
    (sched : List (Nat × Clock)) (h0 : Rest H512 s0 acc) (hU : ∀ o ∈ acc ++ adding calls, InRange o)
    (hno : NoCollision H512 (acc ++ adding calls)) (hdig : ∀ d, Call.byDigest d ∉ calls) (hap : NoSharedNew s0 calls)
    (hexp : ∀ o ∈ adding calls, ∀ e ∈ sched, expired o e.2 = false) :
    let s := sysRun H512 order (begin_ s0 calls) sched
    (∀ th ∈ s.threads, th.2 ≠ .crashed) ∧
    ((∀ th ∈ s.threads, Returned th.2) → ∀ o, (Call.add o, Pc.done (.added true)) ∈ s.threads → ∀ c ∈ o.cids, ∀ t : Clock,
      expired o t = false → ∃ st l, get H512 id order t s.shared.view c = .ok (st, l) ∧ ∃ o' ∈ l, terms o' = terms o) := by
  intro s
  have hinv : Inv H512 s0 acc calls s := inv_run hord hU hno hap sched _ (inv_begin h0 hdig)
    (fun o ho e he => hexp o (mem_adding.2 ho) e he)
  refine ⟨?_, ?_⟩
  · intro th hth hc
    obtain ⟨i, hi⟩ := List.mem_iff_getElem?.1 hth
    obtain ⟨call, pc⟩ := th
    simp only at hc
    subst hc
    have := hinv.thr i _ _ hi
    cases call <;> exact this.elim
  · intro hret o ho c hc t ht
    obtain ⟨i, hi⟩ := List.mem_iff_getElem?.1 ho
    obtain ⟨d, hd, hcov⟩ := hinv.thr i _ _ hi
    have hpres : ∀ d k, Covered H512 s d k → Present s.shared k d := by
      intro d k hcv
      rcases hcv with h1 | ⟨j, o', pc, h1, h2, h3⟩
      · exact h1
      · have := hret _ (List.mem_of_getElem? h1)
        cases pc <;> simp [Returned, pend] at this h3
    obtain ⟨a, ha, hs⟩ := hpres d _ (hcov (Ids.toStr c) (List.mem_map.2 ⟨c, hc, rfl⟩))
    obtain ⟨o', ho'⟩ := Option.isSome_iff_exists.1 hs
    have hkeys : ∀ k, k ∈ mkeys s.shared.cidMap → k ∈ mkeys s.shared.view := by
      intro k hk
      rw [← mget_isSome_iff] at hk ⊢
      rw [mget_view]
      cases hh : mget s.shared.cidMap k with
      | none => rw [hh] at hk; simp at hk
      | some _ => rfl
    have hview : mget s.shared.view (Ids.toStr c) = some (s.shared.dmap a) := by rw [mget_view, ha]; rfl
    have hstored : ∀ x ∈ (order (s.shared.dmap a)).map (fun e => id e.2), ∃ dx, mget (s.shared.dmap a) dx = some x := by
      intro x hx
      obtain ⟨⟨dx, x'⟩, h1, h2⟩ := List.mem_map.1 hx
      simp only [id] at h2
      subst h2
      exact ⟨dx, (mem_mget (hinv.nodup a)).1 ((hord _).mem_iff.1 h1)⟩
    obtain ⟨st', hst⟩ := removeAll_total (H512 := H512) (((order (s.shared.dmap a)).map (fun e => id e.2)).filter (fun o => expired o t))
      s.shared.view (by
        intro x hx
        obtain ⟨dx, hdx⟩ := hstored x (List.mem_filter.1 hx).1
        obtain ⟨g1, g2⟩ := hinv.good a dx x hdx
        refine ⟨⟨dx, g2⟩, fun k hk => ?_⟩
        by_cases hl : Live H512 calls dx
        · obtain ⟨b, hb, _⟩ := hpres dx k (hinv.live a dx x hdx hl k hk)
          exact hkeys k (mkeys_of_mget hb)
        · exact hkeys k (hinv.dead a dx x hdx hl k hk))
    refine ⟨st', ((order (s.shared.dmap a)).map (fun e => id e.2)).filter (fun o => !expired o t), by simp only [get, hview, hst, bind, Except.bind, pure, Except.pure], o', ?_, ?_⟩
    · refine List.mem_filter.2 ⟨List.mem_map.2 ⟨(d, o'), (hord _).mem_iff.2 ((mem_mget (hinv.nodup a)).2 ho'), rfl⟩, ?_⟩
      have hT := same_terms hU hno (hinv.good a d o' ho').1 (List.mem_append.2 (Or.inr (mem_adding.2 (List.mem_of_getElem? (mem_call hinv hi))))) (hinv.good a d o' ho').2 hd
      rw [expired_terms hT, ht]; rfl
    · exact same_terms hU hno (hinv.good a d o' ho').1 (List.mem_append.2 (Or.inr (mem_adding.2 (List.mem_of_getElem? (mem_call hinv hi))))) (hinv.good a d o' ho').2 hd

/-- A new storage is at rest. -/
theorem rest_new : Rest H512 newShared [] := by
  refine ⟨by simp [newShared, mget], by simp [newShared, Shared.dmap, mkeys], by simp [newShared, Shared.dmap, mget], by simp [newShared, Shared.dmap, mget], rfl⟩

/-- A storage holding one DHT offer is at rest. -/
theorem rest_one (o : CidOffer) (c : Id) (d : Bytes) (hc : o.cids = [c]) (hd : digestOf H512 o = .ok d) :
    Rest H512 ⟨[(Ids.toStr c, 0)], [[(d, o)]], 0, 0⟩ [o] := by
  have h0 : ∀ a, Shared.dmap ⟨[(Ids.toStr c, 0)], [[(d, o)]], 0, 0⟩ a = if a = 0 then [(d, o)] else [] := by
    intro a
    cases a <;> simp [Shared.dmap]
  refine ⟨?_, ?_, ?_, ?_, rfl⟩
  · intro k a h
    simp only [mget] at h
    split at h
    · simp at h; simp; omega
    · simp at h
  · intro a; rw [h0]; split <;> simp [mkeys]
  · intro a d' o' h
    rw [h0] at h
    split at h
    · simp only [mget] at h
      split at h
      · rename_i e
        subst e
        injection h with h
        subst h
        exact ⟨by simp, hd⟩
      · simp at h
    · simp [mget] at h
  · intro a d' o' h c' hc'
    rw [h0] at h
    split at h
    · simp only [mget] at h
      split at h
      · rename_i e
        subst e
        injection h with h
        subst h
        rw [hc] at hc'
        simp at hc'
        subst hc'
        exact ⟨0, by simp [mget], by rw [h0]; simp [mget]⟩
      · simp at h
    · simp [mget] at h

/-- The hypotheses of `C23_partial` are met by calls that meet on one content: an offer of content 1 is stored, two others
of it and a group offer of it and of a new content are added while two lookups run, in any interleaving. -/
example (d : Bytes) (hd : digestOf (fun b => b) (exDht 1 2000) = .ok d) (sched : List (Nat × Clock))
    (ht : ∀ e ∈ sched, e.2 = ⟨1000, 0⟩) :
    let s0 : Shared := ⟨[(Ids.toStr (exId 1), 0)], [[(d, exDht 1 2000)]], 0, 0⟩
    let calls : List Call := [.add { exDht 1 2000 with price := 6 }, .get (exId 1), .add { exDht 1 2000 with price := 7 }, .get (exId 1),
      .add (exGroup 1 2 1500)]
    Rest (fun b => b) s0 [exDht 1 2000] ∧ (∀ o ∈ [exDht 1 2000] ++ adding calls, InRange o) ∧
    NoCollision (fun b => b) ([exDht 1 2000] ++ adding calls) ∧ (∀ d, Call.byDigest d ∉ calls) ∧ NoSharedNew s0 calls ∧
    (∀ o ∈ adding calls, ∀ e ∈ sched, expired o e.2 = false) := by
  intro s0 calls
  refine ⟨rest_one _ _ _ _ rfl hd, ?_, fun o _ o' _ b b' _ _ h => h, by simp [calls], ?_, ?_⟩
  · intro o ho
    simp [calls, adding] at ho
    have h := exDht_inRange 1
    rcases ho with rfl | rfl | rfl | rfl
    · exact h
    · exact ⟨h.1, h.2.1, by decide, h.2.2.2.1, h.2.2.2.2.1, h.2.2.2.2.2⟩
    · exact ⟨h.1, h.2.1, by decide, h.2.2.2.1, h.2.2.2.2.1, h.2.2.2.2.2⟩
    · exact exGroup_inRange 1 2
  · intro i j o o' hi hj hij c hc hc'
    have hmem : ∀ i : Nat, ∀ o, calls[i]? = some (.add o) → (i = 4 ∧ o = exGroup 1 2 1500) ∨ o.cids = [exId 1] := by
      intro i o h
      match i, h with
      | 0, h => simp [calls] at h; right; rw [← h]; rfl
      | 1, h => simp [calls] at h
      | 2, h => simp [calls] at h; right; rw [← h]; rfl
      | 3, h => simp [calls] at h
      | 4, h => simp [calls] at h; left; exact ⟨rfl, h.symm⟩
      | n + 5, h => simp [calls] at h
    have : c = exId 1 := by
      rcases hmem i o hi with ⟨e1, e2⟩ | e
      · rcases hmem j o' hj with ⟨e3, e4⟩ | e'
        · omega
        · rw [e'] at hc'; simpa using hc'
      · rw [e] at hc; simpa using hc
    subst this
    simp [s0, mkeys]
  · intro o ho e he
    rw [ht e he]
    simp [calls, adding] at ho
    rcases ho with rfl | rfl | rfl <;> decide +kernel

/-- **C23 is false**: take any two different offers of one new content.  There is an interleaving in which both additions
report success and a lookup finds only the second. -/
theorem C23_lost_refuted (hord : ∀ dm, (order dm).Perm dm) (o o' : CidOffer) (c : Id) (t : Clock) (ho : InRange o) (ho' : InRange o')
    (hc : o.cids = [c]) (hc' : o'.cids = [c]) (he : expired o t = false) (he' : expired o' t = false) :
    ∃ sched, let s := sysRun H512 order (begin_ newShared [.add o, .add o']) sched
      s.threads = [(.add o, .done (.added true)), (.add o', .done (.added true))] ∧
      ∃ st, get H512 id order t s.shared.view c = .ok (st, [o']) := by
  obtain ⟨d, _, hd⟩ := digest_ok H512 ho
  obtain ⟨d', _, hd'⟩ := digest_ok H512 ho'
  have hp : order [(d', o')] = [(d', o')] := List.perm_singleton.1 (hord _)
  refine ⟨[0, 1, 0, 1, 0, 1, 0, 0, 0, 1, 1, 1].map (fun i => (i, t)), ?_⟩
  simp [sysRun, begin_, sysStep, step, addStep, newShared, hc, hc', hd, hd', he, he', mget, mset, Ids.mapToString, Shared.dmap, Shared.view,
    get, hp, removeAll, bind, Except.bind, pure, Except.pure]

/-- **C23 is false** for lookups: a group offer that expires while it is being added crashes a lookup of its first content. -/
theorem C23_lookup_crash_refuted (hord : ∀ dm, (order dm).Perm dm) (o : CidOffer) (c c' : Id) (t t' : Clock) (ho : InRange o)
    (hc : o.cids = [c, c']) (hcc : c ≠ c') (he : expired o t = false) (he' : expired o t' = true) :
    ∃ sched, (sysRun H512 order (begin_ newShared [.add o, .get c]) sched).threads[1]? = some (.get c, .crashed) := by
  obtain ⟨d, _, hd⟩ := digest_ok H512 ho
  have hne : ¬ Ids.toStr c = Ids.toStr c' := fun e => hcc ((toStr_inj (ho.2.1 c (by simp [hc])) (ho.2.1 c' (by simp [hc]))).1 e)
  have hp : order [(d, o)] = [(d, o)] := List.perm_singleton.1 (hord _)
  refine ⟨[(0, t), (0, t), (0, t), (0, t), (0, t), (1, t'), (1, t'), (1, t'), (1, t'), (1, t')], ?_⟩
  simp [sysRun, begin_, sysStep, step, addStep, getStep, newShared, hc, hd, he, he', mget, mset, mdel, Ids.mapToString, Shared.dmap, hp, removals, hne]

/-- **C23 is false** for `GetOfferByDigest`: it iterates over the map of group offers without its lock, and a group offer of
a new content that is added meanwhile changes the map, which crashes the program. -/
theorem C23_by_digest_refuted (o : CidOffer) (c : Id) (cs : List Id) (d : Bytes) (t : Clock) (ho : InRange o) (hc : o.cids = c :: cs)
    (he : expired o t = false) :
    ∃ sched, (sysRun H512 order (begin_ newShared [.add o, .byDigest d]) sched).threads[0]? = some (.add o, .crashed) := by
  obtain ⟨d', _, hd⟩ := digest_ok H512 ho
  refine ⟨[(1, t), (0, t), (0, t), (0, t), (0, t)], ?_⟩
  simp [sysRun, begin_, sysStep, step, addStep, byDigestStep, newShared, hc, hd, he, mget, mset, Ids.mapToString]

/-- Offers as the refutations ask for. -/
example : InRange (exDht 1 2000) ∧ InRange { exDht 1 2000 with price := 6 } ∧ expired (exDht 1 2000) ⟨1000, 0⟩ = false ∧
    InRange (exGroup 1 2 1500) ∧ expired (exGroup 1 2 1500) ⟨1000, 0⟩ = false ∧ expired (exGroup 1 2 1500) ⟨1600, 0⟩ = true :=
  have h := exDht_inRange 1
  ⟨h, ⟨h.1, h.2.1, by decide, h.2.2.2.1, h.2.2.2.2.1, h.2.2.2.2.2⟩, by decide +kernel, exGroup_inRange 1 2, by decide +kernel, by decide +kernel⟩

end FcRetrieval.OfferMgr.Conc
