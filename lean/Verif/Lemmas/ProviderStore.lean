import Verif.Lemmas.ProviderList
/-!
# What stays in the offer store of the provider
-/
set_option linter.unusedSimpArgs false

namespace FcRetrieval.Provider
open FcRetrieval.Ids (Id Proper)
open FcRetrieval.Merkle (Hash)
open FcRetrieval.Crypto (KeyPair KeyVersion)
open FcRetrieval.Message (Msg)
open FcRetrieval.Offer (CidOffer Built)
open FcRetrieval.Register (Record)
open FcRetrieval.Wire
open FcRetrieval.Codecs
open FcRetrieval.OfferMgr

variable {R : Type}

/-- The reference filed under a CID for a digest. -/
def slot (st : Storage R) (s : List Char) (d : Bytes) : Option R := (mget st s).bind (fun dm => mget dm d)

theorem slot_mset (st : Storage R) (s : List Char) (dm : DigestMap R) (s' : List Char) (d' : Bytes) :
    slot (mset st s dm) s' d' = if s = s' then mget dm d' else slot st s' d' := by
  unfold slot
  rw [mget_mset]
  split <;> rfl

theorem slot_addUnder (d : Bytes) (r : R) (st : Storage R) (s s' : List Char) (d' : Bytes) :
    slot (addUnder d r st s) s' d' = if s = s' ∧ d = d' then some r else slot st s' d' := by
  unfold addUnder
  split
  · rename_i h
    rw [slot_mset, mget_mset]
    by_cases h1 : s = s'
    · subst h1
      by_cases h2 : d = d' <;> simp [h2, slot, h, mget]
    · simp [h1]
  · rename_i dm h
    rw [slot_mset, mget_mset]
    by_cases h1 : s = s'
    · subst h1
      by_cases h2 : d = d' <;> simp [h2, slot, h]
    · simp [h1]

theorem slot_removeUnder (d : Bytes) : ∀ (ss : List (List Char)) {st st' : Storage R}, removeUnder d ss st = .ok st' →
    ∀ s' d', d ≠ d' → slot st' s' d' = slot st s' d'
  | [], st, st', h, s', d', _ => by cases h; rfl
  | s :: ss, st, st', h, s', d', hd => by
    unfold removeUnder at h
    split at h
    · cases h
    · rename_i dm hdm
      rw [slot_removeUnder d ss h s' d' hd, slot_mset, mget_mdel, if_neg hd]
      split
      · rename_i hs
        subst hs
        simp [slot, hdm]
      · rfl

theorem digestOf_ok {H512 : Hash} {o : CidOffer} {d : Bytes} : digestOf H512 o = .ok d ↔ Offer.digest H512 o = .ok d := by
  unfold digestOf
  cases Offer.digest H512 o <;> simp

theorem slot_removeAll {H512 : Hash} {d : Bytes} : ∀ (os : List CidOffer) {st st' : Storage R}, removeAll H512 os st = .ok st' →
    (∀ o ∈ os, Offer.digest H512 o ≠ .ok d) → ∀ s, slot st' s d = slot st s d
  | [], st, st', h, _, s => by cases h; rfl
  | o :: os, st, st', h, hd, s => by
    unfold removeAll at h
    cases hx : digestOf H512 o with
    | error e => simp [hx, Bind.bind, Except.bind] at h
    | ok dx =>
      simp only [hx, Bind.bind, Except.bind] at h
      split at h
      · cases h
      · rename_i st1 h1
        rw [slot_removeAll os h (fun o ho => hd o (by simp [ho])) s]
        refine slot_removeUnder dx _ h1 s d ?_
        rintro rfl
        exact hd o (by simp) (digestOf_ok.1 hx)

/-- What is filed stays filed while no offer with the digest has expired. -/
theorem slot_get {H512 : Hash} {deref : R → CidOffer} {order : DigestMap R → DigestMap R} (hord : ∀ dm, (order dm).Perm dm) {t : Clock}
    {st st' : Storage R} {c : Id} {res : List CidOffer} {P : R → Prop} (hP : Refs st P) {d : Bytes}
    (hd : ∀ r, P r → Offer.digest H512 (deref r) = .ok d → expired (deref r) t = false)
    (hg : OfferMgr.get H512 deref order t st c = .ok (st', res)) (s : List Char) : slot st' s d = slot st s d := by
  unfold OfferMgr.get at hg
  split at hg
  · cases hg; rfl
  · rename_i dm hdm
    simp only [Bind.bind, Except.bind] at hg
    split at hg
    · cases hg
    · rename_i st1 h1
      cases hg
      refine slot_removeAll _ h1 ?_ s
      intro o ho hdig
      obtain ⟨ho, hexp⟩ := List.mem_filter.1 ho
      obtain ⟨e, he, rfl⟩ := List.mem_map.1 ho
      have := hd e.2 (hP _ (mget_some_mem hdm) e ((hord dm).mem_iff.1 he)) hdig
      rw [this] at hexp
      cases hexp

theorem slot_rangeGo {H512 : Hash} {deref : R → CidOffer} {order : DigestMap R → DigestMap R} (hord : ∀ dm, (order dm).Perm dm) {t : Clock}
    {max : Int} {P : R → Prop} {d : Bytes} (hd : ∀ r, P r → Offer.digest H512 (deref r) = .ok d → expired (deref r) t = false) :
    ∀ (entries : List (List Char)) {st st' : Storage R} {offers res : List CidOffer} {found : Bool}, Refs st P →
      rangeGo H512 deref order t max entries st offers = .ok (st', res, found) → ∀ s, slot st' s d = slot st s d
  | [], st, st', offers, res, found, _, h, s => by unfold rangeGo at h; cases h; rfl
  | entry :: rest, st, st', offers, res, found, hP, h, s => by
    unfold rangeGo at h
    split at h
    · cases h; rfl
    · rename_i c hc
      simp only [Bind.bind, Except.bind] at h
      split at h
      · cases h
      · rename_i x hx
        obtain ⟨st1, temp⟩ := x
        have h1 := slot_get hord hP hd hx s
        split at h
        · cases h; exact h1
        · rw [slot_rangeGo hord hd rest (refs_get hord hP hx).1 h s, h1]

theorem slot_range {H512 : Hash} {deref : R → CidOffer} {order : DigestMap R → DigestMap R} (hord : ∀ dm, (order dm).Perm dm) {t : Clock}
    {max : Int} {P : R → Prop} {d : Bytes} (hd : ∀ r, P r → Offer.digest H512 (deref r) = .ok d → expired (deref r) t = false)
    {m m' : Mgr R} {a b : Id} {res : List CidOffer} {found : Bool} (hP : Refs m.dht P)
    (h : getDhtRange H512 deref order t m a b max = .ok (m', res, found)) (s : List Char) : slot m'.dht s d = slot m.dht s d := by
  unfold getDhtRange at h
  simp only [Bind.bind, Except.bind] at h
  split at h
  · cases h
  · rename_i x hx
    obtain ⟨ring, entries⟩ := x
    dsimp only at h
    split at h
    · cases h; rfl
    · split at h
      · cases h
      · rename_i y hy
        obtain ⟨st1, offers, ok⟩ := y
        cases h
        exact slot_rangeGo hord hd _ hP hy s

/-- Adding an offer changes nothing that is filed. -/
theorem slot_addDht {H512 : Hash} {deref : R → CidOffer} {t : Clock} {m m' : Mgr R} {r : R} {ok : Bool}
    (h : addDht H512 deref t m r = .ok (m', ok)) (s : List Char) (d : Bytes) :
    slot m'.dht s d = slot m.dht s d ∨ (slot m.dht s d = none ∧ slot m'.dht s d = some r ∧ ∃ c, (deref r).cids = [c] ∧ s = Ids.toStr c) := by
  unfold addDht at h
  split at h
  · rename_i c hc
    simp only [Bind.bind, Except.bind] at h
    split at h
    · cases h
    · split at h
      · cases h
      · rename_i x hx
        obtain ⟨st, ok'⟩ := x
        cases h
        dsimp only
        unfold add at hx
        rw [hc] at hx
        dsimp only at hx
        cases hdig : digestOf H512 (deref r) with
        | error e => simp [hdig, Bind.bind, Except.bind] at hx
        | ok dx =>
          simp only [hdig, Bind.bind, Except.bind] at hx
          split at hx
          · cases hx; exact Or.inl rfl
          · rename_i hholds
            split at hx
            · cases hx; exact Or.inl rfl
            · cases hx
              simp only [Ids.mapToString, List.map_cons, List.map_nil, List.foldl_cons, List.foldl_nil]
              rw [slot_addUnder]
              split
              · rename_i he
                obtain ⟨rfl, rfl⟩ := he
                refine Or.inr ⟨?_, rfl, c, hc, rfl⟩
                unfold holds at hholds
                unfold slot
                cases hm : mget m.dht (Ids.toStr c) with
                | none => rfl
                | some dm =>
                  rw [hm] at hholds
                  cases hd : mget dm dx with
                  | none => simp [hd]
                  | some v => simp [hd] at hholds
              · exact Or.inl rfl
  · cases h; exact Or.inl rfl

/-- Adding an offer that has not expired, for whose CID nothing is filed. -/
theorem slot_addDht_new {H512 : Hash} {deref : R → CidOffer} {t : Clock} {m m' : Mgr R} {r : R} {ok : Bool}
    (h : addDht H512 deref t m r = .ok (m', ok)) {c : Id} (hc : (deref r).cids = [c]) (hx : expired (deref r) t = false)
    (hn : mget m.dht (Ids.toStr c) = none) :
    ∃ d, Offer.digest H512 (deref r) = .ok d ∧ mget m'.dht (Ids.toStr c) = some [(d, r)] := by
  unfold addDht at h
  rw [hc] at h
  simp only [Bind.bind, Except.bind] at h
  split at h
  · cases h
  · split at h
    · cases h
    · rename_i x hxx
      obtain ⟨st, ok'⟩ := x
      cases h
      dsimp only
      unfold add at hxx
      rw [hc] at hxx
      dsimp only at hxx
      cases hdig : digestOf H512 (deref r) with
      | error e => simp [hdig, Bind.bind, Except.bind] at hxx
      | ok dx =>
        simp only [hdig, Bind.bind, Except.bind] at hxx
        rw [if_neg (by simp [holds, hn]), if_neg (by simp [hx])] at hxx
        cases hxx
        refine ⟨dx, digestOf_ok.1 hdig, ?_⟩
        simp only [Ids.mapToString, List.map_cons, List.map_nil, List.foldl_cons, List.foldl_nil, addUnder, hn]
        rw [mget_mset_same]
        rfl

/-- Adding an offer leaves the entries of other CIDs alone. -/
theorem mget_addDht {H512 : Hash} {deref : R → CidOffer} {t : Clock} {m m' : Mgr R} {r : R} {ok : Bool}
    (h : addDht H512 deref t m r = .ok (m', ok)) (s : List Char) :
    mget m'.dht s = mget m.dht s ∨ ∃ c d, (deref r).cids = [c] ∧ s = Ids.toStr c ∧ mget m'.dht s = some (mset ((mget m.dht s).getD []) d r) := by
  unfold addDht at h
  split at h
  · rename_i c hc
    simp only [Bind.bind, Except.bind] at h
    split at h
    · cases h
    · split at h
      · cases h
      · rename_i x hx
        obtain ⟨st, ok'⟩ := x
        cases h
        dsimp only
        unfold add at hx
        rw [hc] at hx
        dsimp only at hx
        cases hdig : digestOf H512 (deref r) with
        | error e => simp [hdig, Bind.bind, Except.bind] at hx
        | ok dx =>
          simp only [hdig, Bind.bind, Except.bind] at hx
          split at hx
          · cases hx; exact Or.inl rfl
          · split at hx
            · cases hx; exact Or.inl rfl
            · cases hx
              simp only [Ids.mapToString, List.map_cons, List.map_nil, List.foldl_cons, List.foldl_nil]
              unfold addUnder
              split
              · rename_i hn
                rw [mget_mset]
                split
                · rename_i he
                  subst he
                  exact Or.inr ⟨c, dx, hc, rfl, by simp [hn]⟩
                · exact Or.inl rfl
              · rename_i dm hn
                rw [mget_mset]
                split
                · rename_i he
                  subst he
                  exact Or.inr ⟨c, dx, hc, rfl, by simp [hn]⟩
                · exact Or.inl rfl
  · cases h; exact Or.inl rfl

theorem deref_cell (heap : List CidOffer) (o : CidOffer) : deref (heap ++ [o]) heap.length = o := by
  simp [deref]

theorem slot_storeLoop {E : Env} {heap : List CidOffer} {s : List Char} {d : Bytes} {r : Nat} : ∀ (os : List CidOffer) {m m' : Mgr Nat},
    storeLoop E heap heap.length m os = .ok m' → slot m.dht s d = some r → slot m'.dht s d = some r
  | [], m, m', h, hs => by cases h; exact hs
  | o :: os, m, m', h, hs => by
    unfold storeLoop at h
    simp only [Bind.bind, Except.bind] at h
    split at h
    · cases h
    · rename_i x hx
      obtain ⟨m1, ok⟩ := x
      refine slot_storeLoop os h ?_
      rcases slot_addDht hx s d with h1 | ⟨h1, -⟩
      · rw [h1, hs]
      · rw [hs] at h1; cases h1

/-- After a batch, what is filed under a CID for which nothing was filed before is the variable of the loop. -/
theorem storeLoop_fresh {E : Env} {heap : List CidOffer} {s : List Char} : ∀ (os : List CidOffer) {m m' : Mgr Nat},
    storeLoop E heap heap.length m os = .ok m' → (∀ e ∈ (mget m.dht s).getD [], e.2 = heap.length) →
    ∀ e ∈ (mget m'.dht s).getD [], e.2 = heap.length
  | [], m, m', h, hs => by cases h; exact hs
  | o :: os, m, m', h, hs => by
    unfold storeLoop at h
    simp only [Bind.bind, Except.bind] at h
    split at h
    · cases h
    · rename_i x hx
      obtain ⟨m1, ok⟩ := x
      refine storeLoop_fresh os h ?_
      rcases mget_addDht hx s with h1 | ⟨c, d, -, -, h1⟩
      · rw [h1]; exact hs
      · rw [h1]
        intro e he
        rcases mem_mset he with rfl | he
        · rfl
        · exact hs e he

/-- And something is filed for every offer that had not expired. -/
theorem storeLoop_files {E : Env} {heap : List CidOffer} : ∀ (os : List CidOffer) {m m' : Mgr Nat},
    storeLoop E heap heap.length m os = .ok m' → (∀ s, (mget m.dht s).isSome → (mget m'.dht s).isSome) ∧
    ((∀ s dm, mget m.dht s = some dm → dm ≠ []) → (∀ s dm, mget m'.dht s = some dm → dm ≠ [])) ∧
    ∀ o ∈ os, ∀ c, o.cids = [c] → expired o E.now = false → (mget m'.dht (Ids.toStr c)).isSome
  | [], m, m', h => by cases h; exact ⟨fun _ h => h, fun h => h, by simp⟩
  | o :: os, m, m', h => by
    unfold storeLoop at h
    simp only [Bind.bind, Except.bind] at h
    split at h
    · cases h
    · rename_i x hx
      obtain ⟨m1, ok⟩ := x
      obtain ⟨ih1, ih2, ih3⟩ := storeLoop_files os h
      have hkeep : ∀ s, (mget m.dht s).isSome → (mget m1.dht s).isSome := by
        intro s hs
        rcases mget_addDht hx s with h1 | ⟨c, d, -, -, h1⟩
        · rw [h1]; exact hs
        · rw [h1]; rfl
      refine ⟨fun s hs => ih1 s (hkeep s hs), fun hne => ih2 ?_, ?_⟩
      · intro s dm hdm
        rcases mget_addDht hx s with h1 | ⟨c, d, -, -, h1⟩
        · rw [h1] at hdm; exact hne s dm hdm
        · rw [h1] at hdm
          cases hdm
          intro h0
          have := mget_mset_same ((mget m.dht s).getD []) d heap.length
          rw [h0] at this
          cases this
      · intro o' ho' c hc hex
        rcases List.mem_cons.1 ho' with rfl | ho'
        · refine ih1 _ ?_
          cases hm : mget m.dht (Ids.toStr c) with
          | some dm => exact hkeep _ (by rw [hm]; rfl)
          | none =>
            obtain ⟨d, -, h2⟩ := slot_addDht_new hx (c := c) (by rw [deref_cell]; exact hc) (by rw [deref_cell]; exact hex) hm
            rw [h2]; rfl
        · exact ih3 o' ho' c hc hex

/-! ## a publish request that was answered -/

theorem near_silent {E : Env} {offers : List CidOffer} (cids : List Id) (c : Core) (n : Nat) (m : Msg) :
    .message m ∉ (nearLoop E offers c n cids).2.1 := by
  refine nearLoop_comp (R := fun _ o _ => .message m ∉ o) (by simp) (by simp) (by simp) ?_ ?_ cids c n
  · intro c o c1 o1 c2 h h1 hm
    rcases List.mem_append.1 hm with hm | hm
    · exact h hm
    · exact h1 hm
  · intro c n gid _
    unfold publishDhtTo
    split <;> try simp
    split <;> try simp
    split <;> try simp
    split <;> try simp
    split <;> simp

theorem publishDht_answered {E : Env} {c : Core} {m r : Msg} (hpr : ProtocolOk E.pr) (h : .message r ∈ (publishDht E c m).2) :
    ∃ cids price expiry qos offers mgr, decode providerAdminPublishDHTOfferRequest m = .ok (cids, price, expiry, qos) ∧ cids ≠ [] ∧
      MadeAll E c cids price expiry qos offers ∧ storeLoop E c.heap c.heap.length c.offers offers = .ok mgr ∧
      (publishDht E c m).1 = (nearLoop E offers { c with heap := c.heap ++ [offers.getLastD noOffer], offers := mgr } 0 cids).1 ∧
      (nearLoop E offers { c with heap := c.heap ++ [offers.getLastD noOffer], offers := mgr } 0 cids).2.2 = true ∧
      (publishDht E c m).2 = (nearLoop E offers { c with heap := c.heap ++ [offers.getLastD noOffer], offers := mgr } 0 cids).2.1 ++ [.message r] ∧
      decode providerAdminPublishDHTOfferResponse r = .ok true := by
  unfold publishDht at h ⊢
  split at h
  · simp at h
  rename_i k v hkey
  split at h
  · simp at h
  · simp at h
  rename_i cids price expiry qos hd
  split at h
  · simp at h
  rename_i hne
  split at h
  · simp at h
  · simp at h
  rename_i offers hmk
  split at h
  · simp at h
  rename_i mgr hst
  have hl : cids.length ≠ 0 ∧ cids.length = price.length ∧ cids.length = expiry.length ∧ cids.length = qos.length := by
    refine ⟨fun h => hne (Or.inl h), ?_, ?_, ?_⟩ <;> apply Classical.byContradiction <;> intro h
    · exact hne (Or.inr (Or.inl h))
    · exact hne (Or.inr (Or.inr (Or.inl h)))
    · exact hne (Or.inr (Or.inr (Or.inr h)))
  refine ⟨cids, price, expiry, qos, offers, mgr, hd, fun h0 => hl.1 (by rw [h0]; rfl), makeOffers_made hkey hl.2.1 hl.2.2.1 hl.2.2.2 hmk, hst, ?_⟩
  simp only [hd, if_neg hne, hmk, hst]
  have hs := near_silent (E := E) (offers := offers) cids { c with heap := c.heap ++ [offers.getLastD noOffer], offers := mgr } 0
  generalize nearLoop E offers { c with heap := c.heap ++ [offers.getLastD noOffer], offers := mgr } 0 cids = l at h hs ⊢
  obtain ⟨c', out, ok⟩ := l
  cases ok with
  | false => exact absurd h (hs r)
  | true =>
    dsimp only at h hs ⊢
    rcases List.mem_append.1 h with h | h
    · exact absurd h (hs r)
    · have hr := (respond_mem (by simp) (by simp) h).1
      rw [hr]
      exact ⟨rfl, rfl, rfl, (respond_decode (by simp) (by simp) (C30_providerAdminPublishDHTOfferResponse E.pr hpr true) h).2⟩

/-! ## what every request does to the store -/

theorem serve_store {H : Hash} {E : Env} {c : Core} {k : Kind} {m : Msg} (hs : Sane H (E, k, m)) (hk : Kept H c) :
    (∃ l, (serve E c k m).1.heap = c.heap ++ l) ∧
    ∀ s d r, slot c.offers.dht s d = some r → (∀ x ∈ c.heap, Offer.digest E.H512 x = .ok d → expired x E.now = false) →
      slot (serve E c k m).1.offers.dht s d = some r := by
  have same : ∀ {c' : Core}, c'.heap = c.heap → c'.offers = c.offers → (∃ l, c'.heap = c.heap ++ l) ∧
      ∀ s d r, slot c.offers.dht s d = some r → (∀ x ∈ c.heap, Offer.digest E.H512 x = .ok d → expired x E.now = false) →
        slot c'.offers.dht s d = some r := by
    intro c' h1 h2
    exact ⟨⟨[], by rw [h1]; simp⟩, fun s d r h _ => by rw [h2]; exact h⟩
  cases k with
  | initialise =>
    simp only [serve]
    unfold initialise
    split <;> exact same rfl rfl
  | initialiseV2 =>
    simp only [serve]
    unfold initialiseV2
    split <;> exact same rfl rfl
  | forceRefresh =>
    simp only [serve]
    unfold forceRefresh
    split
    · exact same rfl rfl
    · split <;> exact same rfl rfl
  | getPublished =>
    simp only [serve]
    unfold getPublished
    split
    · exact same rfl rfl
    · split <;> exact same rfl rfl
  | offerAck =>
    simp only [serve]
    unfold offerAck
    split
    · exact same rfl rfl
    · exact same rfl rfl
    · split
      · split <;> exact same rfl rfl
      · exact same rfl rfl
  | notifyGroup =>
    simp only [serve]
    unfold notifyGroup
    split
    · exact same rfl rfl
    · exact same rfl rfl
    · split <;> exact same rfl rfl
  | publishGroup =>
    simp only [serve]
    unfold publishGroup
    split
    · exact same rfl rfl
    split
    · exact same rfl rfl
    · exact same rfl rfl
    split
    · exact same rfl rfl
    split
    · exact same rfl rfl
    · exact same rfl rfl
    rename_i o ho
    split
    · exact same rfl rfl
    rename_i mgr b hmgr
    have hr := ranGroup_loop (E := E) (o := o) E.gateways { c with heap := c.heap ++ [o], offers := mgr } 0
    have key : ∀ {c' : Core}, Ran { c with heap := c.heap ++ [o], offers := mgr } (gatewayLoop (fun c n gid => publishGroupTo E c n o gid)
        { c with heap := c.heap ++ [o], offers := mgr } 0 E.gateways).2.1 c' → (∃ l, c'.heap = c.heap ++ l) ∧
        ∀ s d r, slot c.offers.dht s d = some r → (∀ x ∈ c.heap, Offer.digest E.H512 x = .ok d → expired x E.now = false) →
          slot c'.offers.dht s d = some r := by
      intro c' h
      refine ⟨⟨[o], h.heap⟩, fun s d r hsl _ => ?_⟩
      rw [h.offers]
      dsimp only
      rw [(addGroup_dht hmgr).1]
      exact hsl
    split
    · rename_i he; rw [he] at hr; have := key (c' := _) (by rw [he]; exact hr.ran); exact this
    · rename_i he; rw [he] at hr; have := key (c' := _) (by rw [he]; exact hr.ran); exact this
  | publishDht =>
    simp only [serve]
    unfold publishDht
    split
    · exact same rfl rfl
    split
    · exact same rfl rfl
    · exact same rfl rfl
    rename_i cids price expiry qos hd
    split
    · exact same rfl rfl
    split
    · exact same rfl rfl
    · exact same rfl rfl
    rename_i offers ho
    split
    · exact same rfl rfl
    rename_i mgr hmgr
    have hr := ranDht_near (E := E) (offers := offers) cids { c with heap := c.heap ++ [offers.getLastD noOffer], offers := mgr } 0
    have key : (∃ l, (nearLoop E offers { c with heap := c.heap ++ [offers.getLastD noOffer], offers := mgr } 0 cids).1.heap = c.heap ++ l) ∧
        ∀ s d r, slot c.offers.dht s d = some r → (∀ x ∈ c.heap, Offer.digest E.H512 x = .ok d → expired x E.now = false) →
          slot (nearLoop E offers { c with heap := c.heap ++ [offers.getLastD noOffer], offers := mgr } 0 cids).1.offers.dht s d = some r := by
      refine ⟨⟨[offers.getLastD noOffer], hr.ran.heap⟩, fun s d r hsl _ => ?_⟩
      rw [hr.ran.offers]
      exact slot_storeLoop _ hmgr hsl
    split
    · rename_i he; rw [he] at key; exact key
    · rename_i he; rw [he] at key; exact key
  | listDht =>
    simp only [serve]
    obtain ⟨rfl, hord, -, -, -, -⟩ := hs
    dsimp only at *
    unfold listDht
    split
    · exact same rfl rfl
    · exact same rfl rfl
    rename_i gw cidMin cidMax x hd
    split
    · rename_i k gid hsk
      split
      · rename_i a b
        split
        · exact same rfl rfl
        · rename_i mgr offers found hg
          have key : ∀ {c' : Core}, (∃ ak, c' = { c with offers := mgr, acks := ak }) → (∃ l, c'.heap = c.heap ++ l) ∧
              ∀ s d r, slot c.offers.dht s d = some r → (∀ x ∈ c.heap, Offer.digest E.H512 x = .ok d → expired x E.now = false) →
              slot c'.offers.dht s d = some r := by
            rintro c' ⟨ak, rfl⟩
            refine ⟨⟨[], by simp⟩, fun s d r hsl hx => ?_⟩
            rw [← hsl]
            refine slot_range hord (P := fun r => ∃ o, c.heap[r]? = some o ∧ o.cids.length = 1) ?_ hk.dht hg s
            rintro r ⟨o, ho, -⟩ hdig
            have : deref c.heap r = o := by simp [deref, List.getD_eq_getElem?_getD, ho]
            rw [this] at hdig ⊢
            exact hx o (List.mem_of_getElem? ho) hdig
          dsimp only
          split
          · exact key ⟨c.acks, rfl⟩
          · split
            · rename_i msgs hl _ r hresp
              refine key ?_
              have : ∀ (pairs : List (Msg × Msg)) (c : Core), ∃ ak, (takeAcks E k gid c pairs).1 = { c with acks := ak } := by
                intro pairs
                induction pairs with
                | nil => intro c; exact ⟨c.acks, rfl⟩
                | cons p pairs ih =>
                  intro c
                  obtain ⟨req, ack⟩ := p
                  unfold takeAcks
                  split
                  · exact ⟨c.acks, rfl⟩
                  · exact ⟨c.acks, rfl⟩
                  · split
                    · split
                      · exact ⟨c.acks, rfl⟩
                      · exact ⟨c.acks, rfl⟩
                      · rename_i offers _
                        obtain ⟨⟨a1, h1⟩, -⟩ := recordListed_spec (gid := gid) (req := req) (ack := ack) offers c
                        split
                        · rename_i he; rw [he] at h1; exact ⟨a1, h1⟩
                        · rename_i he
                          rw [he] at h1
                          dsimp only at h1
                          subst h1
                          obtain ⟨a2, h2⟩ := ih { c with acks := a1 }
                          exact ⟨a2, h2⟩
                    · exact ⟨c.acks, rfl⟩
              unfold finishListing
              split
              · exact ⟨c.acks, rfl⟩
              · split
                · split
                  · exact ⟨c.acks, rfl⟩
                  · dsimp only
                    split
                    · exact ⟨c.acks, rfl⟩
                    · obtain ⟨ak, h⟩ := this (msgs.zip (ackList _)) { c with offers := mgr }
                      exact ⟨ak, h⟩
                · exact ⟨c.acks, rfl⟩
            · exact key ⟨c.acks, rfl⟩
      · exact same rfl rfl
    · exact same rfl rfl
    · exact same rfl rfl

theorem serveAll_store {H H512 : Hash} : ∀ (h : List (Env × Kind × Msg)) {c : Core}, (∀ e ∈ h, Sane H e) → (∀ e ∈ h, e.1.H512 = H512) → Kept H c →
    (∃ l, (serveAll c h).1.heap = c.heap ++ l) ∧
    ∀ s d r, slot c.offers.dht s d = some r →
      (∀ e ∈ h, ∀ x ∈ (serveAll c h).1.heap, Offer.digest H512 x = .ok d → expired x e.1.now = false) →
      slot (serveAll c h).1.offers.dht s d = some r
  | [], c, _, _, _ => ⟨⟨[], by simp [serveAll]⟩, fun _ _ _ h _ => h⟩
  | (E, k, m) :: h, c, hs, hH, hk => by
    obtain ⟨⟨l1, h1⟩, h2⟩ := serve_store (hs (E, k, m) (by simp)) hk
    obtain ⟨⟨l2, h3⟩, h4⟩ := serveAll_store h (fun e he => hs e (by simp [he])) (fun e he => hH e (by simp [he]))
      (stepped_serve (hs (E, k, m) (by simp)) hk).kept
    unfold serveAll
    dsimp only
    refine ⟨⟨l1 ++ l2, by rw [h3, h1, List.append_assoc]⟩, ?_⟩
    intro s d r hsl hx
    refine h4 s d r (h2 s d r hsl ?_) (fun e he => hx e (by simp [he]))
    intro x hxm hdig
    have hE : E.H512 = H512 := hH (E, k, m) (by simp)
    exact hx (E, k, m) (by simp) x (by rw [h3, h1]; simp [hxm]) (hE ▸ hdig)

end FcRetrieval.Provider
