import Verif.Lemmas.SqlConcRun
/-!
# The store of a gateway used by several goroutines at once (C165)

A gateway answers searches while it stores what providers publish.  The store writes an offer with one statement for the offer and one for each
of its CIDs, and reads it with one query for the offers and one for the CIDs of each.  Nothing holds the statements of a call together, so those
of other calls come in between.
-/

set_option linter.unusedSimpArgs false

namespace FcRetrieval.SqlOffer.Conc
open FcRetrieval.Ids (Id Proper position)
open FcRetrieval.Merkle (Hash)
open FcRetrieval.Offer (CidOffer terms InRange Built)

variable (H H512 : Hash) (order : List OfferRow → List OfferRow)

/-! ## a call that runs alone is the call of the sequential model -/

theorem alone_contents (fails : Nat → Bool) (o : CidOffer) : ∀ (rs : List ContentRow) (i : Nat) (db : DB) (ok : Bool),
    sysRun H H512 order ⟨db, [(.insert o, .inserting (rs.map .content) ok)]⟩ ((List.range' (i + 1) rs.length).map (fun k => (0, fails k))) =
      ⟨(runContents fails i rs db ok).1, [(.insert o, .inserting [] (runContents fails i rs db ok).2)]⟩
  | [], _, _, _ => rfl
  | r :: rs, i, db, ok => by
    simp only [List.length_cons, List.range'_succ, List.map_cons, sysRun, List.foldl_cons]
    cases hf : fails (i + 1) with
    | true =>
      have : sysStep H H512 order ⟨db, [(.insert o, .inserting (.content r :: rs.map .content) ok)]⟩ (0, true) =
          ⟨db, [(.insert o, .inserting (rs.map .content) false)]⟩ := rfl
      rw [this, runContents, if_pos hf]
      exact alone_contents fails o rs (i + 1) db false
    | false =>
      have : sysStep H H512 order ⟨db, [(.insert o, .inserting (.content r :: rs.map .content) ok)]⟩ (0, false) =
          ⟨runStmt db (.content r), [(.insert o, .inserting (rs.map .content) true)]⟩ := rfl
      rw [this, runContents, if_neg (by simp [hf])]
      exact alone_contents fails o rs (i + 1) _ true

theorem alone_finished (o : CidOffer) (db : DB) (ok : Bool) : ∀ (sched : List (Nat × Bool)), (∀ m ∈ sched, m.1 = 0) →
    sysRun H H512 order ⟨db, [(.insert o, .inserting [] ok)]⟩ sched = ⟨db, [(.insert o, .inserting [] ok)]⟩
  | [], _ => rfl
  | (i, b) :: sched, h => by
    have : i = 0 := h (i, b) (by simp)
    subst this
    exact alone_finished o db ok sched (fun m hm => h m (by simp [hm]))

/-- **C165**: an addition that nothing comes between is the addition of C26, C87 and C88, whichever of its statements the database refuses. -/
theorem C165_alone_add (fails : Nat → Bool) (db : DB) (o : CidOffer) (ho : InRange o) :
    ∃ db' ok, addDht H512 fails db o = .ok (db', ok) ∧
      sysRun H H512 order (begin db [.insert o]) ((0, false) :: (List.range' 0 (o.cids.length + 1)).map (fun k => (0, fails k))) =
        ⟨db', [(.insert o, .inserting [] ok)]⟩ := by
  obtain ⟨d, hd, _⟩ := OfferMgr.digest_ok H512 ho
  obtain ⟨p, hp, _⟩ := ho.1
  have hlen : (contentRows (hexEncode d) o).length = o.cids.length := by simp [contentRows]
  unfold addDht insertOffer
  simp only [hd, Res.bind_ok, hp]
  have h0 : ∀ sched, sysRun H H512 order (begin db [.insert o]) ((0, false) :: sched) =
      sysRun H H512 order ⟨db, [(.insert o, if bindable o then .inserting (statements d p o) true else .inserting [] false)]⟩ sched := by
    intro sched
    simp only [sysRun, List.foldl_cons, sysStep, begin, List.map_cons, List.map_nil, List.getElem?_cons_zero, step, hd, hp, List.set_cons_zero]
  rw [h0]
  by_cases hb : bindable o = true
  · rw [if_pos hb]
    cases hf : fails 0 with
    | true =>
      refine ⟨db, false, rfl, ?_⟩
      simp only [List.range'_succ, List.map_cons, sysRun, List.foldl_cons, hf]
      refine alone_finished H H512 order o db false _ (fun m hm => ?_)
      obtain ⟨k, _, rfl⟩ := List.mem_map.1 hm
      rfl
    | false =>
      refine ⟨_, _, by simp only [hb]; rfl, ?_⟩
      simp only [List.range'_succ, List.map_cons, sysRun, List.foldl_cons, hf]
      rw [← hlen]
      exact alone_contents H H512 order fails o (contentRows (hexEncode d) o) 0 _ true
  · rw [if_neg hb]
    have hb' : bindable o = false := by simpa using hb
    exact ⟨db, false, by simp [hb'], alone_finished H H512 order o db false _ (fun m hm => by
      obtain ⟨k, _, rfl⟩ := List.mem_map.1 hm
      rfl)⟩

theorem alone_answered (q : Query) (db : DB) (r : Res (List CidOffer × Bool)) : ∀ n, sysRun H H512 order ⟨db, [(.ask q, .answered r)]⟩ (List.replicate n (0, false)) =
    ⟨db, [(.ask q, .answered r)]⟩
  | 0 => rfl
  | n + 1 => by
    rw [List.replicate_succ]
    exact alone_answered q db r n

theorem alone_rows (q : Query) (db : DB) : ∀ (rows : List OfferRow) (res : List CidOffer) (find : Bool) (n : Nat), rows.length < n →
    sysRun H H512 order ⟨db, [(.ask q, .reading rows res find)]⟩ (List.replicate n (0, false)) =
      ⟨db, [(.ask q, .answered (selectGo H db (limit q) rows res find))]⟩
  | _, _, _, 0, h => by omega
  | [], res, find, n + 1, _ => by
    rw [List.replicate_succ]
    exact alone_answered H H512 order q db _ n
  | r :: rows, res, find, n + 1, h => by
    have hlen : rows.length < n := by simp at h; omega
    rw [List.replicate_succ]
    simp only [sysRun, List.foldl_cons, sysStep, List.getElem?_cons_zero, step, List.set_cons_zero]
    unfold selectGo
    cases hr : rebuild H db r with
    | ok x =>
      obtain ⟨o, has⟩ := x
      simp only [Res.bind_ok]
      split
      · exact alone_answered H H512 order q db _ n
      · exact alone_rows q db rows _ _ n hlen
    | err =>
      exfalso
      unfold rebuild at hr
      split at hr
      · cases hr
      · split at hr <;> cases hr
    | panic => exact alone_answered H H512 order q db _ n

theorem alone_search (db : DB) (q : Query) (n : Nat) (hn : (order (rowsFor db q)).length + 2 ≤ n) :
    sysRun H H512 order (begin db [.ask q]) (List.replicate n (0, false)) = ⟨db, [(.ask q, .answered (alone H order db q))]⟩ := by
  obtain ⟨m, rfl⟩ : ∃ m, n = m + 1 := ⟨n - 1, by omega⟩
  rw [List.replicate_succ]
  exact alone_rows H H512 order q db (order (rowsFor db q)) _ _ m (by omega)

theorem alone_digest (db : DB) (d : Bytes) (off now : Int) :
    byDigestAnswer (alone H order db (.byDigest d off now)) = getByDigest H order off now db d := by
  unfold alone getByDigest selectDigest
  simp only [rowsFor, limit]
  cases selectGo H db 1 (order (db.offers.filter fun o => decide (o.digest = hexEncode d) && unexpired off now o.expiry)) [] false with
  | ok x =>
    obtain ⟨l, b⟩ := x
    cases b with
    | false => rfl
    | true => cases l <;> rfl
  | err => rfl
  | panic => rfl

/-- **C165**: a search that nothing comes between is the search of C26, C87 and C88. -/
theorem C165_alone_search (db : DB) : ∀ q, ∃ N r, (∀ n ≥ N, sysRun H H512 order (begin db [.ask q]) (List.replicate n (0, false)) = ⟨db, [(.ask q, .answered r)]⟩) ∧
    (∀ c off now, q = .byCid c off now → r = getOffers H order off now db c) ∧
    (∀ a b max off now, q = .range a b max off now → r = getDhtRange H order off now db a b max) ∧
    (∀ d off now, q = .byDigest d off now → byDigestAnswer r = getByDigest H order off now db d) := by
  intro q
  refine ⟨_, alone H order db q, fun n hn => alone_search H H512 order db q n hn, ?_, ?_, ?_⟩
  · rintro c off now rfl; rfl
  · rintro a b max off now rfl; rfl
  · rintro d off now rfl; exact alone_digest H order db d off now

/-! ## nothing is lost -/

theorem encode_whole {acc : List CidOffer} : ∀ o ∈ acc, Whole H512 (encode H512 acc) o := fun o ho _ hr => List.mem_flatMap.2 ⟨o, ho, hr⟩

theorem encode_owned (acc : List CidOffer) : Owned (encode H512 acc) := by
  intro r hr
  obtain ⟨o, ho, hr⟩ := List.mem_flatMap.1 hr
  exact ⟨_, List.mem_map.2 ⟨o, ho, rfl⟩, (contentRows_digest hr).symm⟩

theorem start_inv {h0 : List (Kind × CidOffer)} {calls : List Call} (hs : Sane H H512 (h0.map (·.2) ++ inserted calls)) {db0 : DB} {oks : List Bool}
    (hrun : run H512 newDB h0 = .ok (db0, oks)) :
    db0 = encode H512 (stored (h0.map (·.2))) ∧ Inv H512 (h0.map (·.2) ++ inserted calls) (stored (h0.map (·.2))) db0 := by
  have hs0 : Sane H H512 (h0.map (·.2)) :=
    ⟨fun o ho => hs.1 o (by simp only [List.mem_append]; exact .inl ho),
     fun x hx y hy => hs.2 x (List.mem_append.2 (.inl hx)) y (List.mem_append.2 (.inl hy))⟩
  obtain ⟨h1, h2⟩ := run_new H H512 h0 hs0
  rw [h1] at hrun
  cases hrun
  exact ⟨rfl, encode_inv h2 (fun o ho => List.mem_append.2 (.inl ((C26_stored _).1 o ho).1))⟩

/-- **C165**: when all additions of a concurrent run are through, the store answers as if they had been made one after the other in some order,
after what was stored before; each addition has reported success unless the price or quality was too large. -/
theorem C165_kept (h0 : List (Kind × CidOffer)) (calls : List Call) (sched : List (Nat × Bool)) (hord : ∀ l, (order l).Perm l)
    (hs : Sane H H512 (h0.map (·.2) ++ inserted calls)) (hf : ∀ m ∈ sched, m.2 = false) (db0 : DB) (oks : List Bool)
    (hrun : run H512 newDB h0 = .ok (db0, oks))
    (hfin : ∀ o th, (Call.insert o, th) ∈ (sysRun H H512 order (begin db0 calls) sched).threads → th.finished = true) :
    ∃ adds db' oks', (adds.map (·.2)).Perm (inserted calls) ∧ run H512 newDB (h0 ++ adds) = .ok (db', oks') ∧
      (∀ c off now, getOffers H order off now (sysRun H H512 order (begin db0 calls) sched).db c = getOffers H order off now db' c) ∧
      (∀ a b max off now, getDhtRange H order off now (sysRun H H512 order (begin db0 calls) sched).db a b max = getDhtRange H order off now db' a b max) ∧
      (∀ d off now, getByDigest H order off now (sysRun H H512 order (begin db0 calls) sched).db d = getByDigest H order off now db' d) ∧
      (∀ o th, (Call.insert o, th) ∈ (sysRun H H512 order (begin db0 calls) sched).threads →
        th = .inserting [] (decide (o.price < 2 ^ 63) && decide (o.qos < 2 ^ 63))) := by
  obtain ⟨he, hi0⟩ := start_inv H H512 hs hrun
  have hmem : ∀ o ∈ inserted calls, o ∈ h0.map (·.2) ++ inserted calls := fun o ho => List.mem_append.2 (.inr ho)
  obtain ⟨⟨ex, hi, hperm⟩, hown, hth, hcalls⟩ := sysRun_finv (order := order) hs hmem sched hf
    (begin_finv (calls := calls) hi0 (by rw [he]; exact encode_owned H512 _))
  have hg : Grows db0 (sysRun H H512 order (begin db0 calls) sched).db :=
    (sysRun_inv hs hord hi0 sched (begin_inv (H := H) hi0 hmem)).grows
  rw [pend_finished hfin, List.append_nil] at hperm
  generalize sysRun H H512 order (begin db0 calls) sched = s at *
  have hres : ∀ o th, (Call.insert o, th) ∈ s.threads → th = .inserting [] (bindable o) ∧ (bindable o = true → ∀ x ∈ stmtsOf H512 o, Done s.db x) := by
    intro o th ht
    have h1 := hth _ ht
    have h2 := hfin o th ht
    cases th with
    | inserting todo ok =>
      cases todo with
      | cons x todo => simp [Th.finished] at h2
      | nil =>
        obtain ⟨h3, _, h5⟩ := h1
        refine ⟨by rw [h3], fun hb => ?_⟩
        obtain ⟨n, h6, h7⟩ := h5 hb
        have := congrArg List.length h6
        simp only [List.length_nil, List.length_drop] at this
        rwa [List.take_of_length_le (by omega)] at h7
    | idle => simp [Th.finished] at h2
    | reading _ _ _ => exact absurd h1 (by simp [PInv])
    | answered _ => exact absurd h1 (by simp [PInv])
    | panicked => exact absurd h1 (by simp [PInv])
  have hins : ∀ o ∈ inserted calls, ∃ th, (Call.insert o, th) ∈ s.threads := by
    intro o ho
    have : Call.insert o ∈ calls := by
      clear hs hi0 hmem hcalls hi hperm hth hfin hres
      induction calls with
      | nil => simp [inserted] at ho
      | cons c calls ih =>
        cases c with
        | insert o' =>
          rcases List.mem_cons.1 ho with rfl | ho
          · simp
          · exact List.mem_cons_of_mem _ (ih ho)
        | ask q => exact List.mem_cons_of_mem _ (ih ho)
    rw [← hcalls] at this
    obtain ⟨⟨c, th⟩, h1, h2⟩ := List.mem_map.1 this
    exact ⟨th, by cases h2; exact h1⟩
  have hfold : ex.foldl keep (stored (h0.map (·.2))) = stored ((h0 ++ ex.map (Kind.group, ·)).map (·.2)) := by
    simp [stored, List.foldl_append, Function.comp_def]
  have hex : (ex.map (Kind.group, ·)).map (·.2) = ex := by simp [Function.comp_def]
  have hs' : Sane H H512 ((h0 ++ ex.map (Kind.group, ·)).map (·.2)) := by
    have hm : ∀ o ∈ (h0 ++ ex.map (Kind.group, ·)).map (·.2), o ∈ h0.map (·.2) ++ inserted calls := by
      intro o ho
      rw [List.map_append, hex] at ho
      rcases List.mem_append.1 ho with ho | ho
      · exact List.mem_append.2 (.inl ho)
      · exact List.mem_append.2 (.inr (hperm.mem_iff.1 ho))
    exact ⟨fun o ho => hs.1 o (hm o ho), fun x hx y hy => hs.2 x (hm x hx) y (hm y hy)⟩
  have hw : ∀ o ∈ ex.foldl keep (stored (h0.map (·.2))), Whole H512 s.db o := by
    intro o ho
    have hsto := stored_go ex (stored (h0.map (·.2))) (C26_stored _).2.2 (fun o ho => ((C26_stored _).1 o ho).2)
    obtain ⟨h1, h2, h3⟩ := hsto.1 o ho
    rcases h1 with h1 | h1
    · obtain ⟨th, ht⟩ := hins o (hperm.mem_iff.1 h1)
      intro r hr
      exact (hres o th ht).2 (by simp [bindable, h2, h3]) (.content r) (by simp [stmtsOf, hr])
    · exact Whole.mono hg (by rw [he]; exact encode_whole H512 o h1)
  have hfp := final_perm hs hi hown hw
  rw [hfold] at hfp hi
  have hal : ∀ q, alone H order s.db q = alone H order (encode H512 (stored ((h0 ++ ex.map (Kind.group, ·)).map (·.2)))) q :=
    fun q => alone_perm (by rw [hi.offers]; rfl) hfp hi.keys q
  refine ⟨ex.map (Kind.group, ·), _, _, by rw [hex]; exact hperm, (run_new H H512 _ hs').1, ?_, ?_, ?_, ?_⟩
  · exact fun c off now => hal (.byCid c off now)
  · exact fun a b max off now => hal (.range a b max off now)
  · intro d off now
    rw [← alone_digest, ← alone_digest, hal]
  · exact fun o th ht => (hres o th ht).1

/-! ## searches during additions -/

/-- **C165**, the part that holds of searches: whatever else is going on, and whichever statements the database refuses, a search by CID or by a range of CIDs
does not crash; it finds every offer that was stored before and is good, whole; and what it returns is part of an offer that was published, for
a content that was asked for. -/
theorem C165_search_partial (h0 : List (Kind × CidOffer)) (calls : List Call) (sched : List (Nat × Bool)) (hord : ∀ l, (order l).Perm l)
    (hs : Sane H H512 (h0.map (·.2) ++ inserted calls)) (db0 : DB) (oks : List Bool) (hrun : run H512 newDB h0 = .ok (db0, oks))
    (q : Query) (hq : q.proper) (hc : q.byContent = true) (hclk : q.clock) (th : Th)
    (ht : (Call.ask q, th) ∈ (sysRun H H512 order (begin db0 calls) sched).threads) :
    th ≠ .panicked ∧ ∀ r, th = .answered r → ∃ l, r = .ok (l, !l.isEmpty) ∧
      (∀ x ∈ l, ∃ o ∈ h0.map (·.2) ++ inserted calls, PartOf H x o ∧ q.live o.expiry ∧ ∃ c ∈ x.cids, q.wants c) ∧
      (q.unlimited → ∀ o ∈ stored (h0.map (·.2)), q.live o.expiry → (∃ c ∈ o.cids, q.wants c) → o ∈ l) := by
  obtain ⟨he, hi0⟩ := start_inv H H512 hs hrun
  have hmem : ∀ o ∈ inserted calls, o ∈ h0.map (·.2) ++ inserted calls := fun o ho => List.mem_append.2 (.inr ho)
  have hR := sysRun_inv hs hord hi0 sched (begin_inv (H := H) hi0 hmem)
  have h := (hR.threads _ ht).1 hc
  refine ⟨fun e => by subst e; exact h, ?_⟩
  rintro r rfl
  obtain ⟨l, hl, h1, h2⟩ := h
  refine ⟨l, hl, ?_, ?_⟩
  · intro x hx
    obtain ⟨o, ho, hpart, hlive, c, hc', hhit⟩ := h1 x hx
    have hcp : Proper c := (hs.1 o ho).1.2.1 c (hpart.cids.subset hc')
    exact ⟨o, ho, hpart, (live_iff hclk _).1 hlive, c, hc', (hits_iff hq hc hcp).1 hhit⟩
  · rintro hun o ho hlive ⟨c, hc', hw⟩
    have hoall := hi0.known o ho
    have hcp : Proper c := (hs.1 o hoall).1.2.1 c hc'
    refine h2 ?_ o hoall ?_ ?_ ((live_iff hclk _).2 hlive) ⟨c, hc', (hits_iff hq hc hcp).2 hw⟩
    · cases q with
      | byCid _ _ _ => simp [limit]
      | range _ _ max _ _ => exact hun
      | byDigest _ _ _ => cases hc
    · rw [he]; exact List.mem_map.2 ⟨o, ho, rfl⟩
    · rw [he]; exact encode_whole H512 o ho

/-- **C165**, the part that holds of lookups by digest: one for an offer that was stored before returns that offer, whatever else is going on. -/
theorem C165_lookup_partial (h0 : List (Kind × CidOffer)) (calls : List Call) (sched : List (Nat × Bool)) (hord : ∀ l, (order l).Perm l)
    (hs : Sane H H512 (h0.map (·.2) ++ inserted calls)) (db0 : DB) (oks : List Bool) (hrun : run H512 newDB h0 = .ok (db0, oks))
    (o : CidOffer) (ho : o ∈ stored (h0.map (·.2))) (d : Bytes) (hd : Offer.digest H512 o = .ok d) (off now : Int) (h0' : 0 ≤ now - off)
    (hlive : now - off < o.expiry ∧ o.expiry ≤ 253402300799) (r : Res (List CidOffer × Bool))
    (ht : (Call.ask (.byDigest d off now), Th.answered r) ∈ (sysRun H H512 order (begin db0 calls) sched).threads) :
    byDigestAnswer r = .ok (some o) := by
  obtain ⟨he, hi0⟩ := start_inv H H512 hs hrun
  have hmem : ∀ o ∈ inserted calls, o ∈ h0.map (·.2) ++ inserted calls := fun o ho => List.mem_append.2 (.inr ho)
  have hR := sysRun_inv hs hord hi0 sched (begin_inv (H := H) hi0 hmem)
  have h := (hR.threads _ ht).2 d off now rfl o ho (dhex_eq hd).symm (by rw [he]; exact encode_whole H512 o ho) ((unexpired_iff _ _ _ h0').2 hlive)
  have : r = .ok ([o], true) := h
  subst this
  rfl

/-! ## where it fails -/

/-- Moves of one call only. -/
theorem solo (pre post : List (Call × Th)) : ∀ (n : Nat) (db : DB) (t : Call × Th), ∃ db' t',
    sysRun H H512 order ⟨db, [t]⟩ (List.replicate n (0, false)) = ⟨db', [t']⟩ ∧
    sysRun H H512 order ⟨db, pre ++ t :: post⟩ (List.replicate n (pre.length, false)) = ⟨db', pre ++ t' :: post⟩
  | 0, db, t => ⟨db, t, rfl, rfl⟩
  | n + 1, db, (c, th) => by
    obtain ⟨db', t', h1, h2⟩ := solo pre post n (step H H512 order false db c th).1 (c, (step H H512 order false db c th).2)
    refine ⟨db', t', ?_, ?_⟩
    · rw [List.replicate_succ]; exact h1
    · rw [List.replicate_succ, ← h2]
      simp only [sysRun, List.foldl_cons, sysStep]
      rw [show (pre ++ (c, th) :: post)[pre.length]? = some (c, th) by simp]
      simp

theorem solo_eq {pre post : List (Call × Th)} {n : Nat} {db db' : DB} {t t' : Call × Th}
    (h : sysRun H H512 order ⟨db, [t]⟩ (List.replicate n (0, false)) = ⟨db', [t']⟩) :
    sysRun H H512 order ⟨db, pre ++ t :: post⟩ (List.replicate n (pre.length, false)) = ⟨db', pre ++ t' :: post⟩ := by
  obtain ⟨db1, t1, h1, h2⟩ := solo H H512 order pre post n db t
  rw [h] at h1
  cases h1
  exact h2

theorem add_steps (o : CidOffer) : ∀ (todo rest : List Stmt) (db : DB),
    sysRun H H512 order ⟨db, [(.insert o, .inserting (todo ++ rest) true)]⟩ (List.replicate todo.length (0, false)) =
      ⟨todo.foldl runStmt db, [(.insert o, .inserting rest true)]⟩
  | [], _, _ => rfl
  | s :: todo, rest, db => by
    rw [List.length_cons, List.replicate_succ]
    cases s <;> exact add_steps o todo rest _

theorem sysRun_append (s : Sys) (a b : List (Nat × Bool)) : sysRun H H512 order s (a ++ b) = sysRun H H512 order (sysRun H H512 order s a) b :=
  List.foldl_append

/-- A search may come in between any two statements of an addition; the addition goes through all the same. -/
theorem between (o : CidOffer) (ho : InRange o) (hb : bindable o = true) (q : Query) (db : DB) (k : Nat) :
    ∃ sched, (∀ m ∈ sched, m.2 = false) ∧ sysRun H H512 order (begin db [.insert o, .ask q]) sched =
      ⟨(stmtsOf H512 o).foldl runStmt db,
        [(.insert o, .inserting [] true), (.ask q, .answered (alone H order (((stmtsOf H512 o).take k).foldl runStmt db) q))]⟩ := by
  obtain ⟨d, p, hd, hp, he⟩ := statements_eq (H512 := H512) ho
  have h0 : sysRun H H512 order ⟨db, [(.insert o, .idle)]⟩ (List.replicate 1 (0, false)) = ⟨db, [(.insert o, .inserting (stmtsOf H512 o) true)]⟩ := by
    simp only [sysRun, List.replicate_succ, List.replicate_zero, List.foldl_cons, List.foldl_nil, sysStep, List.getElem?_cons_zero, step, hd, hp, he,
      if_pos hb, List.set_cons_zero]
  have h1 := add_steps H H512 order o ((stmtsOf H512 o).take k) ((stmtsOf H512 o).drop k) db
  rw [List.take_append_drop] at h1
  have h2 := alone_search H H512 order (((stmtsOf H512 o).take k).foldl runStmt db) q _ (Nat.le_refl _)
  have h3 := add_steps H H512 order o ((stmtsOf H512 o).drop k) [] (((stmtsOf H512 o).take k).foldl runStmt db)
  rw [List.append_nil, ← List.foldl_append, List.take_append_drop] at h3
  refine ⟨List.replicate 1 (0, false) ++ (List.replicate ((stmtsOf H512 o).take k).length (0, false) ++
    (List.replicate ((order (rowsFor (((stmtsOf H512 o).take k).foldl runStmt db) q)).length + 2) (1, false) ++
      List.replicate ((stmtsOf H512 o).drop k).length (0, false))), ?_, ?_⟩
  · intro m hm
    simp only [List.mem_append, List.mem_replicate] at hm
    rcases hm with h | h | h | h <;> rw [h.2]
  · rw [sysRun_append, sysRun_append, sysRun_append]
    have e0 := solo_eq H H512 order (pre := []) (post := [(.ask q, .idle)]) h0
    have e1 := solo_eq H H512 order (pre := []) (post := [(.ask q, .idle)]) h1
    have e2 := solo_eq H H512 order (pre := [(.insert o, .inserting ((stmtsOf H512 o).drop k) true)]) (post := []) h2
    have e3 := solo_eq H H512 order (pre := []) (post := [(.ask q, .answered (alone H order (((stmtsOf H512 o).take k).foldl runStmt db) q))]) h3
    simp only [List.nil_append, List.length_nil, List.length_singleton, List.cons_append] at e0 e1 e2 e3
    rw [show begin db [.insert o, .ask q] = ⟨db, [(.insert o, .idle), (.ask q, .idle)]⟩ from rfl, e0, e1, e2, e3]

/-- **C165 is false of searches**: while an offer of two or more CIDs is being added - successfully - a search for its first CID can return an offer of that
CID alone, with another Merkle root than the one that its provider signed. -/
theorem C165_half_refuted (hord : ∀ l, (order l).Perm l) (o : CidOffer) (c c' : Id) (rest : List Id) (ho : Built H o) (hp : o.price < 2 ^ 63)
    (hq : o.qos < 2 ^ 63) (hc : o.cids = c :: c' :: rest) (off now : Int) (h0 : 0 ≤ now - off) (hlive : now - off < o.expiry ∧ o.expiry ≤ 253402300799) :
    ∃ sched x, (∀ m ∈ sched, m.2 = false) ∧
      (sysRun H H512 order (begin newDB [.insert o, .ask (.byCid c off now)]) sched).threads =
        [(.insert o, .inserting [] true), (.ask (.byCid c off now), .answered (.ok ([x], true)))] ∧
      x.cids = [c] ∧ some x.merkleRoot = Merkle.rootHex H [c] ∧ x.signature = o.signature ∧ x ∉ stored [o] := by
  obtain ⟨sched, h1, h2⟩ := between H H512 order o ho.1 (by simp [bindable, hp, hq]) (.byCid c off now) newDB 2
  obtain ⟨db, x, h3, h4, h5, h6, h7⟩ := C88_truncated_refuted H H512 order hord o c c' rest ho hc off now h0 hlive.1 hlive.2
  rw [interrupted_eq ho.1] at h3
  cases h3
  refine ⟨sched, x, h1, ?_, h5, h6, h7, ?_⟩
  · rw [h2]
    dsimp only
    rw [← h4]
    rfl
  · intro hx
    have := ((C26_stored [o]).1 x hx).1
    simp at this
    subst this
    rw [h5] at hc
    simp at hc

/-- **C165 is false of lookups**: while an offer is being added - successfully - a lookup of its digest can be a nil dereference. -/
theorem C165_crash_refuted (hord : ∀ l, (order l).Perm l) (o : CidOffer) (ho : Built H o) (hp : o.price < 2 ^ 63)
    (hq : o.qos < 2 ^ 63) (d : Bytes) (hd : Offer.digest H512 o = .ok d) (off now : Int) (h0 : 0 ≤ now - off)
    (hlive : now - off < o.expiry ∧ o.expiry ≤ 253402300799) :
    ∃ sched r, (∀ m ∈ sched, m.2 = false) ∧
      (sysRun H H512 order (begin newDB [.insert o, .ask (.byDigest d off now)]) sched).threads =
        [(.insert o, .inserting [] true), (.ask (.byDigest d off now), .answered r)] ∧ byDigestAnswer r = .panic := by
  obtain ⟨sched, h1, h2⟩ := between H H512 order o ho.1 (by simp [bindable, hp, hq]) (.byDigest d off now) newDB 1
  obtain ⟨db, h3, h4⟩ := C88_lookup_crash_refuted H H512 order hord o d ho hd off now h0 hlive.1 hlive.2
  rw [interrupted_eq ho.1] at h3
  cases h3
  exact ⟨sched, _, h1, by rw [h2], by rw [alone_digest]; exact h4⟩

/-! ## the hypotheses are met -/

theorem exSane (q : Query) : Sane Merkle.toyHash (fun b => b) ([(Kind.group, Offer.exOffer)].map (·.2) ++ inserted
    [.insert { Offer.exOffer with price := 6 }, .ask q]) := by
  refine ⟨?_, fun x _ y _ b b' _ _ e => e⟩
  intro o ho
  simp [inserted] at ho
  rcases ho with rfl | rfl
  · exact Offer.exOffer_built
  · exact exOffer6_built

/-- One offer is stored.  While another one of the same CIDs is added, a search is made after its second statement: it finds the first offer. -/
example : ∃ db0 sched l, run (fun b => b) newDB [(.group, Offer.exOffer)] = .ok (db0, [true]) ∧
    (sysRun Merkle.toyHash (fun b => b) (fun l => l) (begin db0 [.insert { Offer.exOffer with price := 6 }, .ask (.byCid (Merkle.exId 1) 0 1000)]) sched).threads =
      [(.insert { Offer.exOffer with price := 6 }, .inserting [] true), (.ask (.byCid (Merkle.exId 1) 0 1000), .answered (.ok (l, !l.isEmpty)))] ∧
    Offer.exOffer ∈ l := by
  have hrun : run (fun b => b) newDB [(.group, Offer.exOffer)] = .ok (encode (fun b => b) (stored [Offer.exOffer]), [true]) := by decide +kernel
  obtain ⟨sched, _, h2⟩ := between Merkle.toyHash (fun b => b) (fun l => l) { Offer.exOffer with price := 6 } exOffer6_built.1 (by decide)
    (.byCid (Merkle.exId 1) 0 1000) (encode (fun b => b) (stored [Offer.exOffer])) 2
  have h3 := C165_search_partial Merkle.toyHash (fun b => b) (fun l => l) [(.group, Offer.exOffer)]
    [.insert { Offer.exOffer with price := 6 }, .ask (.byCid (Merkle.exId 1) 0 1000)] sched (fun l => List.Perm.refl l) (exSane _) _ _ hrun
    (.byCid (Merkle.exId 1) 0 1000) (Merkle.exId_proper 1) rfl (show (0 : Int) ≤ 1000 - 0 by decide) _ (by rw [h2]; exact List.mem_cons_of_mem _ (List.mem_singleton.2 rfl))
  obtain ⟨l, h4, _, h5⟩ := h3.2 _ rfl
  refine ⟨_, sched, l, hrun, by rw [h2, h4], h5 trivial Offer.exOffer ?_ ⟨by decide, by decide⟩ ⟨Merkle.exId 1, by decide, rfl⟩⟩
  show Offer.exOffer ∈ stored [Offer.exOffer]
  rw [stored_one _ (by decide) (by decide)]
  simp

/-- When it is through, the store answers like one to which the two offers were added one after the other. -/
example : ∃ db0 sched adds db' oks', run (fun b => b) newDB [(.group, Offer.exOffer)] = .ok (db0, [true]) ∧ adds.map (·.2) = [{ Offer.exOffer with price := 6 }] ∧
    run (fun b => b) newDB ((.group, Offer.exOffer) :: adds) = .ok (db', oks') ∧
    getOffers Merkle.toyHash (fun l => l) 0 1000
      (sysRun Merkle.toyHash (fun b => b) (fun l => l) (begin db0 [.insert { Offer.exOffer with price := 6 }, .ask (.byCid (Merkle.exId 1) 0 1000)]) sched).db
      (Merkle.exId 1) = getOffers Merkle.toyHash (fun l => l) 0 1000 db' (Merkle.exId 1) := by
  have hrun : run (fun b => b) newDB [(.group, Offer.exOffer)] = .ok (encode (fun b => b) (stored [Offer.exOffer]), [true]) := by decide +kernel
  obtain ⟨sched, h1, h2⟩ := between Merkle.toyHash (fun b => b) (fun l => l) { Offer.exOffer with price := 6 } exOffer6_built.1 (by decide)
    (.byCid (Merkle.exId 1) 0 1000) (encode (fun b => b) (stored [Offer.exOffer])) 2
  obtain ⟨adds, db', oks', h3, h4, h5, _⟩ := C165_kept Merkle.toyHash (fun b => b) (fun l => l) [(.group, Offer.exOffer)]
    [.insert { Offer.exOffer with price := 6 }, .ask (.byCid (Merkle.exId 1) 0 1000)] sched (fun l => List.Perm.refl l) (exSane _) h1 _ _ hrun (by
      intro o th ht
      rw [h2] at ht
      simp at ht
      rw [ht.2]; rfl)
  exact ⟨_, sched, adds, db', oks', hrun, List.perm_singleton.1 h3, h4, h5 _ _ _⟩

/-- A lookup of the first offer by its digest, made after the first statement of the addition. -/
example : ∃ db0 sched d r, run (fun b => b) newDB [(.group, Offer.exOffer)] = .ok (db0, [true]) ∧ Offer.digest (fun b => b) Offer.exOffer = .ok d ∧
    (sysRun Merkle.toyHash (fun b => b) (fun l => l) (begin db0 [.insert { Offer.exOffer with price := 6 }, .ask (.byDigest d 0 1000)]) sched).threads =
      [(.insert { Offer.exOffer with price := 6 }, .inserting [] true), (.ask (.byDigest d 0 1000), .answered r)] ∧ byDigestAnswer r = .ok (some Offer.exOffer) := by
  have hrun : run (fun b => b) newDB [(.group, Offer.exOffer)] = .ok (encode (fun b => b) (stored [Offer.exOffer]), [true]) := by decide +kernel
  obtain ⟨d, hd, _⟩ := OfferMgr.digest_ok (fun b => b) Offer.exOffer_built.1
  obtain ⟨sched, _, h2⟩ := between Merkle.toyHash (fun b => b) (fun l => l) { Offer.exOffer with price := 6 } exOffer6_built.1 (by decide)
    (.byDigest d 0 1000) (encode (fun b => b) (stored [Offer.exOffer])) 1
  refine ⟨_, sched, d, _, hrun, hd, by rw [h2], ?_⟩
  refine C165_lookup_partial Merkle.toyHash (fun b => b) (fun l => l) [(.group, Offer.exOffer)]
    [.insert { Offer.exOffer with price := 6 }, .ask (.byDigest d 0 1000)] sched (fun l => List.Perm.refl l) (exSane _) _ _ hrun Offer.exOffer ?_ d hd 0 1000
    (by decide) ⟨by decide, by decide⟩ _ (by rw [h2]; exact List.mem_cons_of_mem _ (List.mem_singleton.2 rfl))
  show Offer.exOffer ∈ stored [Offer.exOffer]
  rw [stored_one _ (by decide) (by decide)]
  simp

/-- Half an offer, and a crash. -/
example : (∃ sched x, (∀ m ∈ sched, m.2 = false) ∧
      (sysRun Merkle.toyHash (fun b => b) (fun l => l) (begin newDB [.insert Offer.exOffer, .ask (.byCid (Merkle.exId 1) 0 1000)]) sched).threads =
        [(.insert Offer.exOffer, .inserting [] true), (.ask (.byCid (Merkle.exId 1) 0 1000), .answered (.ok ([x], true)))] ∧ x.cids = [Merkle.exId 1]) ∧
    ∃ sched d r, (sysRun Merkle.toyHash (fun b => b) (fun l => l) (begin newDB [.insert Offer.exOffer, .ask (.byDigest d 0 1000)]) sched).threads =
        [(.insert Offer.exOffer, .inserting [] true), (.ask (.byDigest d 0 1000), .answered r)] ∧ byDigestAnswer r = .panic := by
  constructor
  · obtain ⟨sched, x, h1, h2, h3, _⟩ := C165_half_refuted Merkle.toyHash (fun b => b) (fun l => l) (fun l => List.Perm.refl l) Offer.exOffer
      (Merkle.exId 1) (Merkle.exId 2) [] Offer.exOffer_built (by decide) (by decide) rfl 0 1000 (by decide) ⟨by decide, by decide⟩
    exact ⟨sched, x, h1, h2, h3⟩
  · obtain ⟨d, hd, _⟩ := OfferMgr.digest_ok (fun b => b) Offer.exOffer_built.1
    obtain ⟨sched, r, _, h2, h3⟩ := C165_crash_refuted Merkle.toyHash (fun b => b) (fun l => l) (fun l => List.Perm.refl l) Offer.exOffer
      Offer.exOffer_built (by decide) (by decide) d hd 0 1000 (by decide) ⟨by decide, by decide⟩
    exact ⟨sched, d, r, h2, h3⟩

end FcRetrieval.SqlOffer.Conc
