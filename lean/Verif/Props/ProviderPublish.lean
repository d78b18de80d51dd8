import Verif.Lemmas.ProviderReach
import Verif.Lemmas.ProviderExamples
import Verif.Props.Provider
/-!
# What a provider stores, sends and can show: C54, C55, C57, C104, C106
-/
set_option linter.unusedSimpArgs false

namespace FcRetrieval.Provider
open FcRetrieval.Ids (Id Proper)
open FcRetrieval.Merkle (Hash exId exId_proper)
open FcRetrieval.Message (Msg)
open FcRetrieval.Offer (CidOffer Built)
open FcRetrieval.Register (Record)
open FcRetrieval.Wire
open FcRetrieval.Codecs
open FcRetrieval.OfferMgr (Mgr Clock expired)
open FcRetrieval.Crypto (KeyPair)
open FcRetrieval.Gateway (mapFromString_proper exRecord exPub fromHex_len decode_inv decFields_cons res_ok_of_bind)

theorem made_built_all {H : Hash} {E : Env} {c : Core} (hk : Kept H c) {m : Msg} {cids : List Id} {price : List Nat} {expiry : List Int} {qos : List Nat}
    (hd : decode providerAdminPublishDHTOfferRequest m = .ok (cids, price, expiry, qos)) {offers : List CidOffer}
    (hm : MadeAll E c cids price expiry qos offers) : ∀ o ∈ offers, Built E.H o ∧ ∃ cid ∈ cids, Proper cid ∧ o.cids = [cid] ∧ o.expiry ∈ expiry := by
  have hterms := publishDht_terms hd
  intro o ho
  obtain ⟨cid, hcid, p, hp, e, he, q, hq, hm⟩ := madeAll_mem hm o ho
  have hpc : IdsOk [cid] := by intro x hx; simp at hx; subst hx; exact hterms.1 _ hcid
  refine ⟨made_built hk.id hpc (hterms.2.1 p hp) (hterms.2.2.1 e he) (hterms.2.2.2 q hq) hm, cid, hcid, hterms.1 _ hcid, ?_⟩
  obtain ⟨k', v', -, -, h2, -, h4, -⟩ := hm
  exact ⟨h2, h4 ▸ he⟩

theorem last_of {E : Env} {c : Core} {cids : List Id} {price : List Nat} {expiry : List Int} {qos : List Nat} {offers : List CidOffer} (hne : cids ≠ [])
    (hm : MadeAll E c cids price expiry qos offers) :
    offers.getLastD noOffer ∈ offers ∧ (offers.getLastD noOffer).cids = [cids.getLast hne] := by
  have hc := madeAll_cids hm
  have hon : offers ≠ [] := by rintro rfl; simp at hc; exact hne hc
  have hlast : offers.getLastD noOffer = offers.getLast hon := by rw [List.getLastD_eq_getLast?, List.getLast?_eq_some_getLast hon]; rfl
  refine ⟨by rw [hlast]; exact List.getLast_mem hon, ?_⟩
  rw [hlast]
  have h1 : (offers.map (·.cids)).getLast (by simpa using hon) = (offers.getLast hon).cids := List.getLast_map _
  have h2 : (cids.map (fun x => [x])).getLast (by simpa using hne) = [cids.getLast hne] := List.getLast_map _
  rw [← h1, ← h2]
  simp only [hc]

/-! ## C54 -/

/-- **C54 is false** for batches: after an admin has published, with success, DHT offers for several CIDs, the provider has nothing for any of
them in its store but the offer for the last CID; as long as that has not expired it is what the store answers a lookup with. -/
theorem C54_refuted (H : Hash) (hist : List (Env × Kind × Msg)) (hist_sane : ∀ e ∈ hist, Sane H e) (E : Env) (m r : Msg)
    (hs : Sane H (E, .publishDht, m)) (cids : List Id) (price : List Nat) (expiry : List Int) (qos : List Nat)
    (hd : decode providerAdminPublishDHTOfferRequest m = .ok (cids, price, expiry, qos)) (hne : cids ≠ [])
    (hr : .message r ∈ (serve E (serveAll newCore hist).1 .publishDht m).2)
    (cid : Id) (hfresh : mget (serveAll newCore hist).1.offers.dht (Ids.toStr cid) = none) :
    (∀ (E' : Env) mgr os found, (∀ dm, (E'.order dm).Perm dm) →
      OfferMgr.getDht E'.H512 (deref (serve E (serveAll newCore hist).1 .publishDht m).1.heap) E'.order E'.now
        (serve E (serveAll newCore hist).1 .publishDht m).1.offers cid = .ok (mgr, os, found) → ∀ o ∈ os, o.cids = [cids.getLast hne]) ∧
    (cid ∈ cids → (∀ e ∈ expiry, Offer.hasExpired e E.now.sec E.now.nsec = false) →
      ∀ (E' : Env), (∀ dm, (E'.order dm).Perm dm) → (∀ e ∈ expiry, Offer.hasExpired e E'.now.sec E'.now.nsec = false) →
      ∃ mgr os, OfferMgr.getDht E'.H512 (deref (serve E (serveAll newCore hist).1 .publishDht m).1.heap) E'.order E'.now
        (serve E (serveAll newCore hist).1 .publishDht m).1.offers cid = .ok (mgr, os, true) ∧ os ≠ [] ∧ ∀ o ∈ os, o.cids = [cids.getLast hne]) := by
  have hk := kept_serveAll hist hist_sane (kept_new H)
  generalize (serveAll newCore hist).1 = c at *
  obtain ⟨cids', price', expiry', qos', offers, mgr, hd', hne', hmade, hst, h1, -, -, -⟩ := publishDht_answered hs.2.2.2.1 hr
  rw [hd] at hd'
  cases hd'
  obtain ⟨hmem, hlc⟩ := last_of hne hmade
  have hrun := (ranDht_near (E := E) (offers := offers) cids { c with heap := c.heap ++ [offers.getLastD noOffer], offers := mgr } 0).ran
  have hheap : (serve E c .publishDht m).1.heap = c.heap ++ [offers.getLastD noOffer] := by
    show (publishDht E c m).1.heap = _
    rw [h1, hrun.heap]
  have hoff : (serve E c .publishDht m).1.offers = mgr := by
    show (publishDht E c m).1.offers = _
    rw [h1, hrun.offers]
  have hall : ∀ e ∈ (mget mgr.dht (Ids.toStr cid)).getD [], e.2 = c.heap.length := storeLoop_fresh offers hst (by rw [hfresh]; simp)
  rw [hheap, hoff]
  refine ⟨?_, ?_⟩
  · intro E' mgr' os found hord hg o ho
    unfold OfferMgr.getDht OfferMgr.get at hg
    simp only [Bind.bind, Except.bind] at hg
    cases hm : mget mgr.dht (Ids.toStr cid) with
    | none => rw [hm] at hg; cases hg; cases ho
    | some dm =>
      rw [hm] at hg hall
      dsimp only at hg
      split at hg
      · cases hg
      · rename_i x hx
        split at hx
        · cases hx
        · cases hx
          cases hg
          obtain ⟨e, he, rfl⟩ := List.mem_map.1 (List.mem_filter.1 ho).1
          rw [hall e ((hord dm).mem_iff.1 he), deref_cell]
          exact hlc
  · intro hcid hun E' hord hun'
    obtain ⟨o, ho, hoc⟩ : ∃ o ∈ offers, o.cids = [cid] := by
      have : [cid] ∈ offers.map (·.cids) := by rw [madeAll_cids hmade]; exact List.mem_map_of_mem (f := fun x => [x]) hcid
      obtain ⟨o, ho, hx⟩ := List.mem_map.1 this
      exact ⟨o, ho, hx⟩
    have hex : ∀ o ∈ offers, o.expiry ∈ expiry := fun o ho => by
      obtain ⟨-, cid, -, -, -, h⟩ := made_built_all hk hd hmade o ho
      exact h
    have hsome := (storeLoop_files offers hst).2.2 o ho cid hoc (hun _ (hex o ho))
    have hlast : expired (offers.getLastD noOffer) E'.now = false := hun' _ (hex _ hmem)
    have hnon := (storeLoop_files offers hst).2.1
    cases hm : mget mgr.dht (Ids.toStr cid) with
    | none => rw [hm] at hsome; cases hsome
    | some dm =>
      rw [hm] at hall
      have hdne : dm ≠ [] := by
        obtain ⟨pre, o1, post, e1, e2⟩ : ∃ pre o1 post, offers = pre ++ o1 :: post ∧ o1 = o := by
          obtain ⟨pre, post, e⟩ := List.append_of_mem ho
          exact ⟨pre, o, post, e, rfl⟩
        have key : ∀ (os : List CidOffer) {m1 m2 : Mgr Nat}, storeLoop E c.heap c.heap.length m1 os = .ok m2 →
            (∀ dm, mget m1.dht (Ids.toStr cid) = some dm → dm ≠ []) → ∀ dm, mget m2.dht (Ids.toStr cid) = some dm → dm ≠ [] := by
          intro os
          induction os with
          | nil => intro m1 m2 h h0; cases h; exact h0
          | cons x os ih =>
            intro m1 m2 h h0
            unfold storeLoop at h
            simp only [Bind.bind, Except.bind] at h
            split at h
            · cases h
            · rename_i y hy
              obtain ⟨m3, ok⟩ := y
              refine ih h ?_
              intro dm hdm
              rcases mget_addDht hy (Ids.toStr cid) with h4 | ⟨c', d, -, -, h4⟩
              · rw [h4] at hdm; exact h0 dm hdm
              · rw [h4] at hdm
                cases hdm
                intro h5
                have := mget_mset_same ((mget m1.dht (Ids.toStr cid)).getD []) d c.heap.length
                rw [h5] at this
                cases this
        exact key offers hst (by intro dm h; rw [hfresh] at h; cases h) dm hm
      have hmap : (E'.order dm).map (fun e => deref (c.heap ++ [offers.getLastD noOffer]) e.2) = (E'.order dm).map (fun _ => offers.getLastD noOffer) := by
        refine List.map_congr_left (fun e he => ?_)
        rw [hall e ((hord dm).mem_iff.1 he), deref_cell]
      refine ⟨mgr, (E'.order dm).map (fun _ => offers.getLastD noOffer), ?_, ?_, ?_⟩
      · have hf1 : ((E'.order dm).map (fun _ => offers.getLastD noOffer)).filter (fun o => expired o E'.now) = [] := by
          rw [List.filter_eq_nil_iff]
          intro x hx
          obtain ⟨e, -, rfl⟩ := List.mem_map.1 hx
          rw [hlast]; decide
        have hf2 : ((E'.order dm).map (fun _ => offers.getLastD noOffer)).filter (fun o => !expired o E'.now) =
            (E'.order dm).map (fun _ => offers.getLastD noOffer) := by
          rw [List.filter_eq_self]
          intro x hx
          obtain ⟨e, -, rfl⟩ := List.mem_map.1 hx
          rw [hlast]; rfl
        have hlen : ((E'.order dm).map (fun _ => offers.getLastD noOffer)).length > 0 := by
          rw [List.length_map, (hord dm).length_eq]
          exact List.length_pos_iff.2 hdne
        unfold OfferMgr.getDht OfferMgr.get
        simp only [Bind.bind, Except.bind, hm, hmap, hf1, hf2, OfferMgr.removeAll, Pure.pure, Except.pure]
        rw [decide_eq_true hlen]
      · intro h0
        have := congrArg List.length h0
        rw [List.length_map, (hord dm).length_eq] at this
        exact hdne (List.eq_nil_of_length_eq_zero this)
      · intro x hx
        obtain ⟨e, -, rfl⟩ := List.mem_map.1 hx
        exact hlc


theorem get_of_slot {H512 : Hash} {deref : Nat → CidOffer} {order : OfferMgr.DigestMap Nat → OfferMgr.DigestMap Nat} (hord : ∀ dm, (order dm).Perm dm)
    {t : Clock} {m m' : Mgr Nat} {cid : Id} {os : List CidOffer} {found : Bool} {d : Bytes} {r : Nat} (hs : slot m.dht (Ids.toStr cid) d = some r)
    (hx : expired (deref r) t = false) (h : OfferMgr.getDht H512 deref order t m cid = .ok (m', os, found)) : deref r ∈ os := by
  unfold slot at hs
  unfold OfferMgr.getDht OfferMgr.get at h
  simp only [Bind.bind, Except.bind] at h
  cases hm : mget m.dht (Ids.toStr cid) with
  | none => rw [hm] at hs; cases hs
  | some dm =>
    rw [hm] at h hs
    dsimp only at h
    have hs : mget dm d = some r := hs
    split at h
    · cases h
    · rename_i x hx1
      split at hx1
      · cases hx1
      · cases hx1
        cases h
        refine List.mem_filter.2 ⟨?_, by rw [hx]; rfl⟩
        exact List.mem_map.2 ⟨(d, r), (hord dm).mem_iff.2 (mget_some_mem hs), rfl⟩

/-- C54 for a batch of one offer, for a CID for which nothing was stored: the store answers with exactly that offer, and goes on answering
with it, whatever is asked of the provider, until it expires.

Missing: batches of several offers (`C54_refuted`), and a CID for which an offer is stored already.  Two stored offers with the same digest
and different expiry dates are excluded: that would be a collision of the hash. -/
theorem C54_partial (H H512 : Hash) (h1 h2 : List (Env × Kind × Msg)) (E : Env) (m r : Msg)
    (h1_sane : ∀ e ∈ h1, Sane H e) (hs : Sane H (E, .publishDht, m)) (h2_sane : ∀ e ∈ h2, Sane H e) (hE : E.H512 = H512) (h2_hash : ∀ e ∈ h2, e.1.H512 = H512)
    (cid : Id) (price : Nat) (expiry : Int) (qos : Nat)
    (hd : decode providerAdminPublishDHTOfferRequest m = .ok ([cid], [price], [expiry], [qos]))
    (hr : .message r ∈ (serve E (serveAll newCore h1).1 .publishDht m).2)
    (hfresh : mget (serveAll newCore h1).1.offers.dht (Ids.toStr cid) = none)
    (hnow : Offer.hasExpired expiry E.now.sec E.now.nsec = false)
    (hlater : ∀ e ∈ h2, Offer.hasExpired expiry e.1.now.sec e.1.now.nsec = false) :
    ∃ o d, Made E (serveAll newCore h1).1 [cid] price expiry qos o ∧ Offer.digest H512 o = .ok d ∧
      (∀ (order : OfferMgr.DigestMap Nat → OfferMgr.DigestMap Nat) (t : Clock), (∀ dm, (order dm).Perm dm) → Offer.hasExpired expiry t.sec t.nsec = false →
        OfferMgr.getDht H512 (deref (serve E (serveAll newCore h1).1 .publishDht m).1.heap) order t (serve E (serveAll newCore h1).1 .publishDht m).1.offers cid =
          .ok ((serve E (serveAll newCore h1).1 .publishDht m).1.offers, [o], true)) ∧
      ((∀ x ∈ (serveAll newCore (h1 ++ (E, .publishDht, m) :: h2)).1.heap, Offer.digest H512 x = .ok d → x.expiry = expiry) →
        ∀ (order : OfferMgr.DigestMap Nat → OfferMgr.DigestMap Nat) (t : Clock) mgr os found, (∀ dm, (order dm).Perm dm) →
        Offer.hasExpired expiry t.sec t.nsec = false →
        OfferMgr.getDht H512 (deref (serveAll newCore (h1 ++ (E, .publishDht, m) :: h2)).1.heap) order t
          (serveAll newCore (h1 ++ (E, .publishDht, m) :: h2)).1.offers cid = .ok (mgr, os, found) → o ∈ os) := by
  have hk := kept_serveAll h1 h1_sane (kept_new H)
  have hall : (serveAll newCore (h1 ++ (E, .publishDht, m) :: h2)).1 = (serveAll (serve E (serveAll newCore h1).1 .publishDht m).1 h2).1 := by
    rw [serveAll_append]
    rfl
  rw [hall]
  generalize (serveAll newCore h1).1 = c at *
  have hk' := (stepped_serve hs hk).kept
  obtain ⟨cids', price', expiry', qos', offers, mgr, hd', hne', hmade, hst, h3, -, -, -⟩ := publishDht_answered hs.2.2.2.1 hr
  rw [hd] at hd'
  cases hd'
  match offers, hmade with
  | [o], ⟨hmade, _⟩ =>
  have hexp : o.expiry = expiry := by
    obtain ⟨k', v', -, -, -, -, h4, -⟩ := hmade
    exact h4
  have hoc : o.cids = [cid] := by
    obtain ⟨k', v', -, -, h4, -⟩ := hmade
    exact h4
  have hrun := (ranDht_near (E := E) (offers := [o]) [cid] { c with heap := c.heap ++ [o], offers := mgr } 0).ran
  have hheap : (serve E c .publishDht m).1.heap = c.heap ++ [o] := by
    show (publishDht E c m).1.heap = _
    rw [h3]
    exact hrun.heap
  have hoff : (serve E c .publishDht m).1.offers = mgr := by
    show (publishDht E c m).1.offers = _
    rw [h3]
    exact hrun.offers
  obtain ⟨d, hdig, hget⟩ : ∃ d, Offer.digest H512 o = .ok d ∧ mget mgr.dht (Ids.toStr cid) = some [(d, c.heap.length)] := by
    unfold storeLoop storeLoop at hst
    simp only [Bind.bind, Except.bind] at hst
    split at hst
    · cases hst
    · rename_i x hx
      obtain ⟨mgr', ok⟩ := x
      cases hst
      obtain ⟨d, e1, e2⟩ := slot_addDht_new hx (c := cid) (by rw [deref_cell]; exact hoc) (by rw [deref_cell]; unfold expired; rw [hexp]; exact hnow) hfresh
      rw [deref_cell, show (E, Kind.publishDht, m).1.H512 = H512 from hE] at e1
      exact ⟨d, e1, e2⟩
  refine ⟨o, d, hmade, hdig, ?_, ?_⟩
  · intro order t hord ht
    rw [hheap, hoff]
    have h5 : order [(d, c.heap.length)] = [(d, c.heap.length)] := List.perm_singleton.1 (hord _)
    have hx : expired o t = false := by unfold expired; rw [hexp]; exact ht
    unfold OfferMgr.getDht OfferMgr.get
    simp only [Bind.bind, Except.bind, hget, h5, List.map_cons, List.map_nil, deref_cell, List.filter_cons, List.filter_nil, hx, OfferMgr.removeAll]
    rfl
  · intro hclash order t mgr' os found hord ht hg
    obtain ⟨⟨l, e1⟩, e2⟩ := serveAll_store h2 h2_sane h2_hash hk'
    have hslot : slot (serveAll (serve E c .publishDht m).1 h2).1.offers.dht (Ids.toStr cid) d = some c.heap.length := by
      refine e2 _ _ _ ?_ ?_
      · rw [hoff]
        unfold slot
        rw [hget]
        simp [mget]
      · intro e he x hx hxd
        unfold expired
        rw [hclash x hx hxd]
        exact hlater e he
    have hder : deref (serveAll (serve E c .publishDht m).1 h2).1.heap c.heap.length = o := by
      rw [e1, hheap]
      unfold deref
      simp
    have := get_of_slot hord hslot (t := t) (by rw [hder]; unfold expired; rw [hexp]; exact ht) hg
    rwa [hder] at this

/-! ## C55 -/

theorem ackRequest_ids {m : Msg} {cid gid : Option Id} (h : decode clientDHTOfferAckRequest m = .ok (cid, gid)) :
    (∀ p, cid = some p → Proper p) ∧ ∀ p, gid = some p → Proper p := by
  obtain ⟨-, fs, ⟨w1, w2, ⟨⟩⟩, h1, h2⟩ := decode_inv h
  cases h2
  exact ⟨fun p hp => fromHex_len hp, fun p hp => fromHex_len hp⟩

/-- What the provider says about a pair of a CID and a gateway. -/
theorem offerAck_answer {H : Hash} {E : Env} {c : Core} (hk : Kept H c) (hpr : ProtocolOk E.pr) (hsign : CanSign E c) {q : Msg} {cid gid : Id}
    (hq : decode clientDHTOfferAckRequest q = .ok (some cid, some gid)) :
    ∃ r, (serve E c .offerAck q).2 = [.message r] ∧
      match entry c (Ids.toStr cid) (Ids.toStr gid) with
      | some (req, ack) => decode clientDHTOfferAckResponse r = .ok (some cid, some gid, true, some req, some ack)
      | none => ∃ req ack, decode clientDHTOfferAckResponse r = .ok (some cid, some gid, false, some req, some ack) := by
  obtain ⟨hc, hg⟩ := ackRequest_ids hq
  have hsign' := hsign
  obtain ⟨id, k, v, hid, hp, -, -⟩ := hsign'
  obtain ⟨m1, e1, -⟩ := C30_providerPublishDHTOfferRequest E.H E.pr hpr c.id 0 [] ⟨id, hid, hp⟩ ⟨by decide, by decide⟩ (by simp) (by simp) ⟨by decide, by decide⟩
  obtain ⟨m2, e2, -⟩ := C30_providerPublishDHTOfferResponse E.pr hpr 0 [] ⟨by decide, by decide⟩
  show ∃ r, (offerAck E c q).2 = [.message r] ∧ _
  unfold offerAck
  rw [hq, e1, e2]
  dsimp only
  have hent : (mget c.acks (Ids.toStr cid)).bind (fun gs => mget gs (Ids.toStr gid)) = entry c (Ids.toStr cid) (Ids.toStr gid) := rfl
  rw [hent]
  cases he : entry c (Ids.toStr cid) (Ids.toStr gid) with
  | some v =>
    obtain ⟨req, ack⟩ := v
    obtain ⟨h1, h2⟩ := hk.acks _ _ _ he
    obtain ⟨m', e3, -, e4⟩ := respond_writes (b1 := [.status 500]) (b2 := [.status 500]) hsign (C30_clientDHTOfferAckResponse E.pr hpr (some cid) (some gid) true (some req) (some ack)
      ⟨cid, rfl, hc _ rfl⟩ ⟨gid, rfl, hg _ rfl⟩ ⟨req, rfl, h1⟩ ⟨ack, rfl, h2⟩)
    exact ⟨m', e3, e4⟩
  | none =>
    obtain ⟨m', e3, -, e4⟩ := respond_writes (b1 := [.panic]) (b2 := [.status 500]) hsign (C30_clientDHTOfferAckResponse E.pr hpr (some cid) (some gid) false (some m1) (some m2)
      ⟨cid, rfl, hc _ rfl⟩ ⟨gid, rfl, hg _ rfl⟩ ⟨m1, rfl, encode_range hpr (show inI32 302 from ⟨by decide, by decide⟩) e1 m1.signature⟩
      ⟨m2, rfl, encode_range hpr (show inI32 303 from ⟨by decide, by decide⟩) e2 m2.signature⟩)
    exact ⟨m', e3, m1, m2, e4⟩

theorem entry_evidence {H : Hash} {hist : List (Env × Kind × Msg)} (hist_sane : ∀ e ∈ hist, Sane H e) {cid gid : Id} (hc : Proper cid) (hg : Proper gid)
    {req ack : Msg} (h : entry (serveAll newCore hist).1 (Ids.toStr cid) (Ids.toStr gid) = some (req, ack)) : ∃ e ∈ hist, Evidence e.1 cid gid req ack := by
  rcases (serveAll_acks hist hist_sane (kept_new H)).2 _ _ _ h with h | ⟨e, he, cid', gid', h1, h2, h3, h4, h5⟩
  · cases h
  · rw [OfferMgr.toStr_inj hc h1] at h3
    rw [OfferMgr.toStr_inj hg h2] at h4
    subst h3 h4
    exact ⟨e, he, h5⟩

/-- **C55, what is shown is genuine**: whatever a provider is asked, and however the gateways behave, if it shows a request and an
acknowledgement for a CID and a gateway then that gateway did sign that request, and the request has an offer for that CID. -/
theorem C55_genuine (H : Hash) (hist : List (Env × Kind × Msg)) (hist_sane : ∀ e ∈ hist, Sane H e) (E : Env) (hpr : ProtocolOk E.pr)
    (hsign : CanSign E (serveAll newCore hist).1) (q : Msg) (cid gid : Id) (hq : decode clientDHTOfferAckRequest q = .ok (some cid, some gid)) :
    ∃ r found req ack, (serve E (serveAll newCore hist).1 .offerAck q).2 = [.message r] ∧
      decode clientDHTOfferAckResponse r = .ok (some cid, some gid, found, some req, some ack) ∧
      (found = true → ∃ e ∈ hist, Evidence e.1 cid gid req ack) ∧
      ((∀ e ∈ hist, ∀ req ack, ¬ Evidence e.1 cid gid req ack) → found = false) := by
  obtain ⟨hc, hg⟩ := ackRequest_ids hq
  obtain ⟨r, h1, h2⟩ := offerAck_answer (kept_serveAll hist hist_sane (kept_new H)) hpr hsign hq
  split at h2
  · rename_i req ack he
    obtain ⟨e, hm, hev⟩ := entry_evidence hist_sane (hc _ rfl) (hg _ rfl) he
    exact ⟨r, true, req, ack, h1, h2, fun _ => ⟨e, hm, hev⟩, fun hx => absurd hev (hx e hm _ _)⟩
  · obtain ⟨req, ack, h2⟩ := h2
    exact ⟨r, false, req, ack, h1, h2, fun hx => (by cases hx), fun _ => rfl⟩

/-- **C55, acknowledgements are recorded**: once a gateway has been asked to store DHT offers, and acknowledges the request, the provider shows
for every CID of the request and that gateway a request with an offer for that CID and an acknowledgement of it; also after any
number of further requests.

Missing: an acknowledgement given when a gateway lists the offers, where the provider crashes instead of recording it
(`C55_refuted`, `C74_refuted`); one that comes after another acknowledgement for the same CID is recorded (`C74_partial`). -/
theorem C55_partial (H : Hash) (h1 h2 : List (Env × Kind × Msg)) (E : Env) (m : Msg)
    (h1_sane : ∀ e ∈ h1, Sane H e) (hs : Sane H (E, .publishDht, m)) (h2_sane : ∀ e ∈ h2, Sane H e)
    (gid : Id) (req : Msg) (hasked : .asked gid req ∈ (serve E (serveAll newCore h1).1 .publishDht m).2)
    (hack : ∀ n, ∃ ack, E.exchange n gid req = some ack ∧ SignedBy E gid ack ∧ Acknowledges E gid req ack)
    (offers : List CidOffer) (hcar : Carries E req offers) (o : CidOffer) (ho : o ∈ offers) (cid : Id) (hcid : o.cids = [cid])
    (E' : Env) (hpr : ProtocolOk E'.pr) (hsign : CanSign E' (serveAll newCore (h1 ++ (E, .publishDht, m) :: h2)).1)
    (q : Msg) (hq : decode clientDHTOfferAckRequest q = .ok (some cid, some gid)) :
    ∃ r req' ack', (serve E' (serveAll newCore (h1 ++ (E, .publishDht, m) :: h2)).1 .offerAck q).2 = [.message r] ∧
      decode clientDHTOfferAckResponse r = .ok (some cid, some gid, true, some req', some ack') ∧
      ∃ e ∈ h1 ++ (E, .publishDht, m) :: h2, Evidence e.1 cid gid req' ack' := by
  have hsane : ∀ e ∈ h1 ++ (E, Kind.publishDht, m) :: h2, Sane H e := by
    intro e he
    rcases List.mem_append.1 he with he | he
    · exact h1_sane e he
    · rcases List.mem_cons.1 he with rfl | he
      · exact hs
      · exact h2_sane e he
  have hk := kept_serveAll h1 h1_sane (kept_new H)
  have hall : (serveAll newCore (h1 ++ (E, .publishDht, m) :: h2)).1 = (serveAll (serve E (serveAll newCore h1).1 .publishDht m).1 h2).1 := by
    rw [serveAll_append]
    rfl
  have hk' := (stepped_serve hs hk).kept
  have hentry : (entry (serveAll newCore (h1 ++ (E, .publishDht, m) :: h2)).1 (Ids.toStr cid) (Ids.toStr gid)).isSome := by
    rw [hall]
    refine (serveAll_acks h2 h2_sane hk').1 _ _ ?_
    generalize (serveAll newCore h1).1 = c at *
    obtain ⟨cids, price, expiry, qos, offers', mgr, tail, hd, hmade, hst, e1, e2, e3⟩ := publishDht_asked hasked
    have hbuilt := made_built_all hk hd hmade
    have hsingle : ∀ o ∈ offers', o.cids.length = 1 := by
      intro o ho
      obtain ⟨-, x, -, -, hx, -⟩ := hbuilt o ho
      rw [hx]; rfl
    have hne : ∀ o ∈ offers', o.cids ≠ [] := by
      intro o ho h0
      have := hsingle o ho
      rw [h0] at this
      cases this
    have holen : offers'.length = cids.length := by
      have := congrArg List.length (madeAll_cids hmade)
      simpa using this
    have hrun := ranDht_near (E := E) (offers := offers') cids { c with heap := c.heap ++ [offers'.getLastD noOffer], offers := mgr } 0
    obtain ⟨m0, sig, he, rfl⟩ := hrun.asked _ _ e3
    have hsame : offers' = offers := by
      obtain ⟨pid, nonce, hx⟩ := hcar
      have := carries_of_encode hs.2.2.2.1 hk.id (fun o ho => hs.1 ▸ (hbuilt o ho).1) hsingle (holen ▸ hs.2.2.2.2.2 _ _ _ _ hd) he sig
      rw [this] at hx
      cases hx
      rfl
    subst hsame
    show (entry (publishDht E c m).1 _ _).isSome
    rw [e1]
    exact hrun.new _ _ (nearLoop_confirms hne hack _ _ _ e3) o ho cid [] hcid
  obtain ⟨hc, hg⟩ := ackRequest_ids hq
  obtain ⟨r, e1, e2⟩ := offerAck_answer (kept_serveAll _ hsane (kept_new H)) hpr hsign hq
  cases he : entry (serveAll newCore (h1 ++ (E, .publishDht, m) :: h2)).1 (Ids.toStr cid) (Ids.toStr gid) with
  | none => rw [he] at hentry; cases hentry
  | some v =>
    obtain ⟨req', ack'⟩ := v
    rw [he] at e2
    exact ⟨r, req', ack', e1, e2, entry_evidence hsane (hc _ rfl) (hg _ rfl) he⟩

/-! ## C57 -/

theorem published_ids {m : Msg} {l : List Id} (h : decode providerAdminGetPublishedOfferRequest m = .ok l) : IdsOk l := by
  obtain ⟨-, fs, ⟨w1, ⟨⟩⟩, h1, h2⟩ := decode_inv h
  exact mapFromString_proper (ids_ok h2)

/-- **C57, the answer**: for the gateways asked for, in that order, the offers that each confirmed, in the order in which it confirmed them;
for an empty request those of all gateways, in some order.  `confirmedBy` and `allConfirmed` look at the history of the provider. -/
theorem C57_answer (H : Hash) (hist : List (Env × Kind × Msg)) (hist_sane : ∀ e ∈ hist, Sane H e) (E : Env) (q : Msg) (hs : Sane H (E, .getPublished, q))
    (hsign : CanSign E (serveAll newCore hist).1) (gids : List Id) (hq : decode providerAdminGetPublishedOfferRequest q = .ok gids) :
    ∃ r found offers, (serve E (serveAll newCore hist).1 .getPublished q) = ((serveAll newCore hist).1, [.message r]) ∧
      decode (providerAdminGetPublishedOfferResponse H) r = .ok (found, offers) ∧ (found = true ↔ offers ≠ []) ∧
      (gids ≠ [] → offers = gids.flatMap (fun g => confirmedBy g (serveAll newCore hist).2)) ∧
      (gids = [] → offers.Perm (allConfirmed (serveAll newCore hist).2)) := by
  obtain ⟨hsent, htot⟩ := serveAll_sent hist hist_sane (kept_new H)
  have hk := kept_serveAll hist hist_sane (kept_new H)
  generalize (serveAll newCore hist).1 = c at *
  generalize (serveAll newCore hist).2 = outs at *
  obtain ⟨rfl, -, hord, hpr, -, -⟩ := hs
  dsimp only at *
  have hids := published_ids hq
  have hone : ∀ g ∈ gids, (mget c.sent (Ids.toStr g)).getD [] = confirmedBy g outs := by
    intro g hg
    rw [hsent g (hids g hg)]
    rfl
  have hflat : gids.flatMap (fun g => (mget c.sent (Ids.toStr g)).getD []) = gids.flatMap (fun g => confirmedBy g outs) := by
    have : ∀ l : List Id, (∀ g ∈ l, g ∈ gids) → l.flatMap (fun g => (mget c.sent (Ids.toStr g)).getD []) = l.flatMap (fun g => confirmedBy g outs) := by
      intro l
      induction l with
      | nil => intro _; rfl
      | cons a l ih =>
        intro h
        simp only [List.flatMap_cons]
        rw [hone a (h a (by simp)), ih (fun g hg => h g (by simp [hg]))]
    exact this gids (fun _ h => h)
  have htot : (c.sent.flatMap (·.2)).Perm (allConfirmed outs) := by simpa [newCore] using htot
  have hall : ((E.orderSent c.sent).flatMap (·.2)).Perm (allConfirmed outs) := ((hord c.sent).flatMap_right _).trans htot
  have hbuilt1 : ∀ o ∈ gids.flatMap (fun g => (mget c.sent (Ids.toStr g)).getD []), Built E.H o := by
    intro o ho
    obtain ⟨g, -, ho⟩ := List.mem_flatMap.1 ho
    cases hm : mget c.sent (Ids.toStr g) with
    | none => rw [hm] at ho; cases ho
    | some os =>
      rw [hm] at ho
      exact hk.sent o (List.mem_flatMap.2 ⟨_, mget_some_mem hm, ho⟩)
  have hbuilt2 : ∀ o ∈ (E.orderSent c.sent).flatMap (·.2), Built E.H o := by
    intro o ho
    exact hk.sent o (((hord c.sent).flatMap_right _).mem_iff.1 ho)
  have hdec : ∀ l : List CidOffer, (decide (l.length > 0) = true ↔ l ≠ []) := by
    intro l
    cases l <;> simp
  have hkey : c.key ≠ none := by
    obtain ⟨-, k, v, -, -, h, -⟩ := hsign
    rw [h]
    exact nofun
  simp only [serve]
  unfold getPublished
  rw [if_neg hkey, hq]
  dsimp only
  by_cases hl : gids.length > 0
  · simp only [if_pos hl]
    obtain ⟨m', e1, -, e2⟩ := respond_writes (b1 := [.status 500]) (b2 := [.status 500]) hsign
      (C30_providerAdminGetPublishedOfferResponse E.H E.pr hpr (decide ((gids.flatMap (fun g => (mget c.sent (Ids.toStr g)).getD [])).length > 0)) _ hbuilt1)
    refine ⟨m', _, _, by rw [e1], e2, hdec _, fun _ => hflat, ?_⟩
    rintro rfl
    simp at hl
  · simp only [if_neg hl]
    obtain ⟨m', e1, -, e2⟩ := respond_writes (b1 := [.status 500]) (b2 := [.status 500]) hsign
      (C30_providerAdminGetPublishedOfferResponse E.H E.pr hpr (decide (((E.orderSent c.sent).flatMap (fun e => e.2)).length > 0)) _ hbuilt2)
    refine ⟨m', _, _, by rw [e1], e2, hdec _, ?_, fun _ => hall⟩
    intro hne
    exact absurd (List.length_pos_iff.2 hne) hl

theorem serveAll_conf {H : Hash} : ∀ (h : List (Env × Kind × Msg)) {c : Core}, (∀ e ∈ h, Sane H e) → Kept H c → ∀ g os, .confirmed g os ∈ (serveAll c h).2 →
    ∃ e ∈ h, ∃ n req ack, .asked g req ∈ (serveAll c h).2 ∧ e.1.exchange n g req = some ack ∧ SignedBy e.1 g ack ∧
      ((Carries e.1 req os ∧ Acknowledges e.1 g req ack) ∨
        ∃ o pid nonce gw d dig, os = [o] ∧ decode (providerPublishGroupOfferRequest e.1.H) req = .ok (pid, nonce, some o) ∧
          decode providerPublishGroupOfferResponse ack = .ok (gw, d) ∧ Offer.digest e.1.H512 o = .ok dig ∧ readDigest e.1 d = dig)
  | [], c, _, _, g, os, h => by cases h
  | (E, k, m) :: h, c, hs, hk, g, os, hm => by
    have hst := stepped_serve (hs (E, k, m) (by simp)) hk
    unfold serveAll at hm ⊢
    dsimp only at hm ⊢
    rcases List.mem_append.1 hm with hm | hm
    · obtain ⟨-, n, req, ack, h1, h2⟩ := hst.conf g os hm
      exact ⟨(E, k, m), by simp, n, req, ack, List.mem_append.2 (Or.inl h1), h2⟩
    · obtain ⟨e, he, n, req, ack, h1, h2⟩ := serveAll_conf h (fun e he => hs e (by simp [he])) hst.kept g os hm
      exact ⟨e, by simp [he], n, req, ack, List.mem_append.2 (Or.inr h1), h2⟩

theorem confirmedBy_mem {g : Id} {outs : List Out} {o : CidOffer} : o ∈ confirmedBy g outs ↔ ∃ os, .confirmed g os ∈ outs ∧ o ∈ os := by
  induction outs with
  | nil => simp [confirmedBy]
  | cons x outs ih =>
    cases x
    case confirmed g' os =>
      simp only [confirmedBy, List.mem_append, ih]
      by_cases h : g' = g
      · subst h
        simp only [if_true]
        constructor
        · rintro (h | ⟨os', h1, h2⟩)
          · exact ⟨os, by simp, h⟩
          · exact ⟨os', by simp [h1], h2⟩
        · rintro ⟨os', h1, h2⟩
          rcases List.mem_cons.1 h1 with h1 | h1
          · cases h1; exact Or.inl h2
          · exact Or.inr ⟨os', h1, h2⟩
      · simp only [if_neg h]
        constructor
        · rintro (h | ⟨os', h1, h2⟩)
          · cases h
          · exact ⟨os', by simp [h1], h2⟩
        · rintro ⟨os', h1, h2⟩
          rcases List.mem_cons.1 h1 with h1 | h1
          · cases h1; exact absurd rfl h
          · exact Or.inr ⟨os', h1, h2⟩
    all_goals
      simp only [confirmedBy, ih]
      constructor
      · rintro ⟨os', h1, h2⟩
        exact ⟨os', by simp [h1], h2⟩
      · rintro ⟨os', h1, h2⟩
        rcases List.mem_cons.1 h1 with h1 | h1
        · cases h1
        · exact ⟨os', h1, h2⟩

/-- **C57, what counts as confirmed**: an offer is listed for a gateway only if that gateway was sent a request with the offer and answered
with a message signed with its registered key, holding a signature over the request (DHT offers) or the digest of the offer (group
offers).

Together with `C57_answer` and `C57_complete_partial` this is C57 for what a provider publishes.  Missing: an offer that a gateway got by
listing, and acknowledged, is not listed for it (`C57_listing_refuted`). -/
theorem C57_genuine (H : Hash) (hist : List (Env × Kind × Msg)) (hist_sane : ∀ e ∈ hist, Sane H e) (g : Id) (o : CidOffer)
    (ho : o ∈ confirmedBy g (serveAll newCore hist).2) :
    ∃ e ∈ hist, ∃ n req ack, .asked g req ∈ (serveAll newCore hist).2 ∧ e.1.exchange n g req = some ack ∧ SignedBy e.1 g ack ∧
      ((∃ offers, Carries e.1 req offers ∧ o ∈ offers ∧ Acknowledges e.1 g req ack) ∨
        ∃ pid nonce gw d dig, decode (providerPublishGroupOfferRequest e.1.H) req = .ok (pid, nonce, some o) ∧
          decode providerPublishGroupOfferResponse ack = .ok (gw, d) ∧ Offer.digest e.1.H512 o = .ok dig ∧ readDigest e.1 d = dig) := by
  obtain ⟨os, h1, h2⟩ := confirmedBy_mem.1 ho
  obtain ⟨e, he, n, req, ack, h3, h4, h5, h6⟩ := serveAll_conf hist hist_sane (kept_new H) g os h1
  refine ⟨e, he, n, req, ack, h3, h4, h5, ?_⟩
  rcases h6 with ⟨h6, h7⟩ | ⟨o', pid, nonce, gw, d, dig, rfl, h7⟩
  · exact Or.inl ⟨os, h6, h2, h7⟩
  · rw [List.mem_singleton.1 h2]
    exact Or.inr ⟨pid, nonce, gw, d, dig, h7⟩

/-- **C57, nothing confirmed is left out**: if a gateway is sent DHT offers and acknowledges them, they are listed for it from then on. -/
theorem C57_complete_partial (H : Hash) (h1 h2 : List (Env × Kind × Msg)) (E : Env) (m : Msg)
    (h1_sane : ∀ e ∈ h1, Sane H e) (hs : Sane H (E, .publishDht, m))
    (gid : Id) (req : Msg) (hasked : .asked gid req ∈ (serve E (serveAll newCore h1).1 .publishDht m).2)
    (hack : ∀ n, ∃ ack, E.exchange n gid req = some ack ∧ SignedBy E gid ack ∧ Acknowledges E gid req ack)
    (offers : List CidOffer) (hcar : Carries E req offers) (o : CidOffer) (ho : o ∈ offers) :
    o ∈ confirmedBy gid (serveAll newCore (h1 ++ (E, .publishDht, m) :: h2)).2 := by
  have hk := kept_serveAll h1 h1_sane (kept_new H)
  have hall : (serveAll newCore (h1 ++ (E, .publishDht, m) :: h2)).2 = (serveAll newCore h1).2 ++
      ((serve E (serveAll newCore h1).1 .publishDht m).2 ++ (serveAll (serve E (serveAll newCore h1).1 .publishDht m).1 h2).2) := by
    rw [serveAll_append]
    rfl
  rw [hall]
  generalize (serveAll newCore h1).1 = c at *
  obtain ⟨cids, price, expiry, qos, offers', mgr, tail, hd, hmade, hst, e1, e2, e3⟩ := publishDht_asked hasked
  have hbuilt := made_built_all hk hd hmade
  have hsingle : ∀ o ∈ offers', o.cids.length = 1 := by
    intro o ho
    obtain ⟨-, x, -, -, hx, -⟩ := hbuilt o ho
    rw [hx]; rfl
  have hne : ∀ o ∈ offers', o.cids ≠ [] := by
    intro o ho h0
    have := hsingle o ho
    rw [h0] at this
    cases this
  have holen : offers'.length = cids.length := by
    have := congrArg List.length (madeAll_cids hmade)
    simpa using this
  have hrun := ranDht_near (E := E) (offers := offers') cids { c with heap := c.heap ++ [offers'.getLastD noOffer], offers := mgr } 0
  obtain ⟨m0, sig, he, rfl⟩ := hrun.asked _ _ e3
  have hsame : offers' = offers := by
    obtain ⟨pid, nonce, hx⟩ := hcar
    have := carries_of_encode hs.2.2.2.1 hk.id (fun o ho => hs.1 ▸ (hbuilt o ho).1) hsingle (holen ▸ hs.2.2.2.2.2 _ _ _ _ hd) he sig
    rw [this] at hx
    cases hx
    rfl
  subst hsame
  refine confirmedBy_mem.2 ⟨offers', ?_, ho⟩
  have : .confirmed gid offers' ∈ (serve E c .publishDht m).2 := by
    show .confirmed gid offers' ∈ (publishDht E c m).2
    rw [e2]
    exact List.mem_append.2 (Or.inl (nearLoop_confirms hne hack _ _ _ e3))
  simp [this]

/-- **C57 is false** for offers that a gateway gets by listing: even where its acknowledgements are recorded (`C74_partial`), a gateway that
confirmed nothing before has nothing listed for it afterwards. -/
theorem C57_listing_refuted (H : Hash) (hist : List (Env × Kind × Msg)) (hist_sane : ∀ e ∈ hist, Sane H e) (E : Env) (m : Msg)
    (hs : Sane H (E, .listDht, m)) (hsign : CanSign E (serveAll newCore hist).1)
    (gid a b : Id) (x) (hd : decode gatewayListDHTOfferRequest m = .ok (some gid, some a, some b, x)) (k : KeyPair)
    (ha : Authentic E (some gid) m k) (mgr : Mgr Nat) (offers : List CidOffer)
    (hg : OfferMgr.getDhtRange E.H512 (deref (serveAll newCore hist).1.heap) E.order E.now (serveAll newCore hist).1.offers a b 500 =
      .ok (mgr, offers, true))
    (hl : AcknowledgesLists E gid)
    (hold : ∀ o ∈ offers, ∀ cid, o.cids = [cid] → ∃ g, (entry (serveAll newCore hist).1 (Ids.toStr cid) g).isSome)
    (hnone : confirmedBy gid (serveAll newCore hist).2 = []) :
    (∀ o ∈ offers, ∀ cid, o.cids = [cid] → (entry (serve E (serveAll newCore hist).1 .listDht m).1 (Ids.toStr cid) (Ids.toStr gid)).isSome) ∧
    confirmedBy gid (serveAll newCore (hist ++ [(E, .listDht, m)])).2 = [] := by
  obtain ⟨r, h1, h2⟩ := C74_partial H hist hist_sane E m hs hsign gid a b x hd k ha mgr offers hg hl hold
  refine ⟨h2, ?_⟩
  rw [serveAll_append]
  simp only [serveAll, h1, confirmedBy_append, hnone]
  rfl

/-! ## C104: who is asked to store DHT offers -/

/-- **C104**: when a batch of DHT offers was published with success, every gateway near one of its CIDs was sent every offer of the batch,
and nobody was sent anything who is not near one of the CIDs. -/
theorem C104_near (H : Hash) (hist : List (Env × Kind × Msg)) (hist_sane : ∀ e ∈ hist, Sane H e) (E : Env) (m r : Msg)
    (hs : Sane H (E, .publishDht, m)) (hsign : CanSign E (serveAll newCore hist).1) (cids : List Id) (price : List Nat) (expiry : List Int) (qos : List Nat)
    (hd : decode providerAdminPublishDHTOfferRequest m = .ok (cids, price, expiry, qos))
    (hr : .message r ∈ (serve E (serveAll newCore hist).1 .publishDht m).2) :
    ∃ offers, MadeAll E (serveAll newCore hist).1 cids price expiry qos offers ∧
      (∀ cid ∈ cids, ∃ rs, E.near cid = some rs ∧ ∀ x ∈ rs, ∃ gid req, Ids.fromHex x.nodeID = some gid ∧
        .asked gid req ∈ (serve E (serveAll newCore hist).1 .publishDht m).2 ∧ Carries E req offers) ∧
      ∀ gid req, .asked gid req ∈ (serve E (serveAll newCore hist).1 .publishDht m).2 →
        Carries E req offers ∧ ∃ cid ∈ cids, ∃ rs, E.near cid = some rs ∧ ∃ x ∈ rs, Ids.fromHex x.nodeID = some gid := by
  have hk := kept_serveAll hist hist_sane (kept_new H)
  generalize (serveAll newCore hist).1 = c at *
  obtain ⟨cids', price', expiry', qos', offers, mgr, hd', hne', hmade, hst, -, h3, h4, -⟩ := publishDht_answered hs.2.2.2.1 hr
  rw [hd] at hd'
  cases hd'
  have hbuilt := made_built_all hk hd hmade
  have hsingle : ∀ o ∈ offers, o.cids.length = 1 := by
    intro o ho
    obtain ⟨-, x, -, -, hx, -⟩ := hbuilt o ho
    rw [hx]; rfl
  have holen : offers.length = cids.length := by
    have := congrArg List.length (madeAll_cids hmade)
    simpa using this
  have hin : inI64 offers.length := holen ▸ hs.2.2.2.2.2 _ _ _ _ hd
  have hmem := nearLoop_mem (E := E) (offers := offers) (Q := fun c' => c'.id = c.id ∧ c'.key = c.key) (by
    intro c' n gid ⟨h1, h2⟩
    obtain ⟨h3, h4⟩ := publishDhtTo_frame (E := E) (c := c') (offers := offers) (n := n) (gid := gid)
    exact ⟨h3.trans h1, h4.trans h2⟩) cids { c with heap := c.heap ++ [offers.getLastD noOffer], offers := mgr } 0 ⟨rfl, rfl⟩
  have hout : (serve E c .publishDht m).2 = _ := h4
  refine ⟨offers, hmade, ?_, ?_⟩
  · intro cid hcid
    obtain ⟨rs, h5, h6⟩ := hmem.2 h3 cid hcid
    refine ⟨rs, h5, ?_⟩
    intro x hx
    obtain ⟨gid, c', n', h7, ⟨h8, h9⟩, h10⟩ := h6 x hx
    obtain ⟨req, h11, h12⟩ := publishDhtTo_asks hs.2.2.2.1 (canSign_frame hsign h8 h9) (fun o ho => ⟨(hbuilt o ho).1, hsingle o ho⟩) hin n' gid
    refine ⟨gid, req, h7, ?_, h12⟩
    rw [hout]
    exact List.mem_append.2 (Or.inl (h10 _ h11))
  · intro gid req hx
    rw [hout] at hx
    rcases List.mem_append.1 hx with hx | hx
    · rcases hmem.1 _ hx with hx | hx | ⟨cid, hcid, rs, h5, x, hx1, gid', c', n', h6, ⟨h7, h8⟩, h9⟩
      · cases hx
      · cases hx
      · obtain ⟨rfl, m0, sig, h10, rfl⟩ := publishDhtTo_asked h9
        refine ⟨⟨c'.id, 1, carries_of_encode hs.2.2.2.1 (by rw [h7]; exact hk.id) (fun o ho => (hbuilt o ho).1) hsingle hin h10 sig⟩, cid, hcid, rs, h5, x, hx1, h6⟩
    · simp at hx

/-- **C104 is false** the other way round: gateways are also sent offers for CIDs that they are not near to.  Every gateway that is sent
anything in the course of a batch is sent the offers for all of its CIDs. -/
theorem C104_refuted (H : Hash) (hist : List (Env × Kind × Msg)) (hist_sane : ∀ e ∈ hist, Sane H e) (E : Env) (m r : Msg)
    (hs : Sane H (E, .publishDht, m)) (hsign : CanSign E (serveAll newCore hist).1) (cids : List Id) (price : List Nat) (expiry : List Int) (qos : List Nat)
    (hd : decode providerAdminPublishDHTOfferRequest m = .ok (cids, price, expiry, qos))
    (hr : .message r ∈ (serve E (serveAll newCore hist).1 .publishDht m).2)
    (gid : Id) (req : Msg) (hasked : .asked gid req ∈ (serve E (serveAll newCore hist).1 .publishDht m).2) (cid : Id) (hcid : cid ∈ cids) :
    ∃ offers o, Carries E req offers ∧ o ∈ offers ∧ o.cids = [cid] := by
  obtain ⟨offers, h1, -, h3⟩ := C104_near H hist hist_sane E m r hs hsign cids price expiry qos hd hr
  have : [cid] ∈ offers.map (·.cids) := by rw [madeAll_cids h1]; exact List.mem_map_of_mem (f := fun x => [x]) hcid
  obtain ⟨o, ho, hx⟩ := List.mem_map.1 this
  exact ⟨offers, o, (h3 gid req hasked).1, ho, hx⟩

/-! ## C106: who is asked to store group offers -/

/-- **C106**: when a group offer was published with success, every registered gateway was sent it, and nobody else was. -/
theorem C106_partial (H : Hash) (hist : List (Env × Kind × Msg)) (hist_sane : ∀ e ∈ hist, Sane H e) (E : Env) (m r : Msg)
    (hs : Sane H (E, .publishGroup, m)) (hsign : CanSign E (serveAll newCore hist).1) (cids : List Id) (price : Nat) (expiry : Int) (qos : Nat)
    (hd : decode providerAdminPublishGroupOfferRequest m = .ok (cids, price, expiry, qos))
    (hr : .message r ∈ (serve E (serveAll newCore hist).1 .publishGroup m).2) :
    ∃ o, Made E (serveAll newCore hist).1 cids price expiry qos o ∧ decode providerAdminPublishGroupOfferResponse r = .ok true ∧
      (∀ x ∈ E.gateways, ∃ gid req, Ids.fromHex x.nodeID = some gid ∧ .asked gid req ∈ (serve E (serveAll newCore hist).1 .publishGroup m).2 ∧
        decode (providerPublishGroupOfferRequest H) req = .ok ((serveAll newCore hist).1.id, 1, some o)) ∧
      ∀ gid req, .asked gid req ∈ (serve E (serveAll newCore hist).1 .publishGroup m).2 → ∃ x ∈ E.gateways, Ids.fromHex x.nodeID = some gid := by
  have hk := kept_serveAll hist hist_sane (kept_new H)
  generalize (serveAll newCore hist).1 = c at *
  obtain ⟨cids', price', expiry', qos', o, c0, hd', hmade, h1, h2, h3, h4, h5⟩ := publishGroup_answered hs.2.2.2.1 hr
  rw [hd] at hd'
  cases hd'
  have hH : E.H = H := hs.1
  subst hH
  have hterms := publishGroup_terms hd
  have hb : Built E.H o := made_built hk.id hterms.1 hterms.2.1 hterms.2.2.1 hterms.2.2.2 hmade
  have hmem := gatewayLoop_mem (send := fun c n gid => publishGroupTo E c n o gid) (Q := fun c' => c'.id = c.id ∧ c'.key = c.key) (by
    intro c' n gid ⟨h1, h2⟩
    obtain ⟨h3, h4⟩ := publishGroupTo_frame (E := E) (c := c') (o := o) (n := n) (gid := gid)
    exact ⟨h3.trans h1, h4.trans h2⟩) E.gateways c0 0 ⟨h1, h2⟩
  have hout : (serve E c .publishGroup m).2 = _ := h4
  refine ⟨o, hmade, h5, ?_, ?_⟩
  · intro x hx
    obtain ⟨gid, c', n', h7, ⟨h8, h9⟩, h10⟩ := hmem.2.2 h3 x hx
    obtain ⟨req, h11, h12⟩ := publishGroupTo_asks hs.2.2.2.1 (canSign_frame hsign h8 h9) hb n' gid
    refine ⟨gid, req, h7, ?_, by rw [← h8]; exact h12⟩
    rw [hout]
    exact List.mem_append.2 (Or.inl (h10 _ h11))
  · intro gid req hx
    rw [hout] at hx
    rcases List.mem_append.1 hx with hx | hx
    · rcases hmem.2.1 _ hx with hx | ⟨x, hx1, gid', c', n', h6, -, h9⟩
      · cases hx
      · rw [publishGroupTo_asked h9]
        exact ⟨x, hx1, h6⟩
    · simp at hx

theorem gatewayLoop_stops {send : Core → Nat → Id → Core × List Out × Bool} (hs : ∀ c n gid r, .message r ∉ (send c n gid).2.1)
    (ha : ∀ c n gid g req, .asked g req ∈ (send c n gid).2.1 → g = gid) (bad : Record) (post : List Record) (hb : Ids.fromHex bad.nodeID = none) :
    ∀ (pre : List Record) (c : Core) (n : Nat), (gatewayLoop send c n (pre ++ bad :: post)).2.2.2 = false ∧
      (∀ r, .message r ∉ (gatewayLoop send c n (pre ++ bad :: post)).2.1) ∧
      ∀ g req, .asked g req ∈ (gatewayLoop send c n (pre ++ bad :: post)).2.1 → ∃ x ∈ pre, Ids.fromHex x.nodeID = some g
  | [], c, n => by
    simp only [List.nil_append]
    unfold gatewayLoop
    rw [hb]
    simp
  | x :: pre, c, n => by
    simp only [List.cons_append]
    unfold gatewayLoop
    split
    · simp
    · rename_i gid hg
      have h1 := hs c n gid
      have h2 := ha c n gid
      split
      · rename_i c' out he
        rw [he] at h1 h2
        refine ⟨rfl, h1, fun g req h => ⟨x, by simp, ?_⟩⟩
        rw [h2 g req h]
        exact hg
      · rename_i c' out he
        rw [he] at h1 h2
        obtain ⟨i1, i2, i3⟩ := gatewayLoop_stops hs ha bad post hb pre c' (n + 1)
        refine ⟨i1, ?_, ?_⟩
        · intro r h
          rcases List.mem_append.1 h with h | h
          · exact h1 r h
          · exact i2 r h
        · intro g req h
          rcases List.mem_append.1 h with h | h
          · rw [h2 g req h]
            exact ⟨x, by simp, hg⟩
          · obtain ⟨y, hy, hy'⟩ := i3 g req h
            exact ⟨y, by simp [hy], hy'⟩

/-- **C106 is false** if one of the gateways registered has an identifier that is not hexadecimal: whatever the history and the request, the
admin gets no answer, and none of the gateways after that one is sent the offer. -/
theorem C106_refuted (E : Env) (c : Core) (m : Msg) (pre : List Record) (bad : Record) (post : List Record)
    (hg : E.gateways = pre ++ bad :: post) (hbad : Ids.fromHex bad.nodeID = none) :
    (∀ r, .message r ∉ (serve E c .publishGroup m).2) ∧
    ∀ gid req, .asked gid req ∈ (serve E c .publishGroup m).2 → ∃ x ∈ pre, Ids.fromHex x.nodeID = some gid := by
  show (∀ r, .message r ∉ (publishGroup E c m).2) ∧ ∀ gid req, .asked gid req ∈ (publishGroup E c m).2 → _
  unfold publishGroup
  split
  · simp
  split
  · simp
  · simp
  split
  · simp
  split
  · simp
  · simp
  rename_i o _
  split
  · simp
  rename_i mgr _ _
  have h := gatewayLoop_stops (send := fun c n gid => publishGroupTo E c n o gid) (fun c n gid r => publishGroupTo_silent r)
    (fun c n gid g req h => publishGroupTo_asked h) bad post hbad pre { c with heap := c.heap ++ [o], offers := mgr } 0
  rw [← hg] at h
  split
  · rename_i c' out n' he
    rw [he] at h
    exact h.2
  · rename_i c' out n' he
    rw [he] at h
    cases h.1

/-! ## the theorems apply -/

/-- A provider that has been initialised. -/
def exReady : List (Env × Kind × Msg) := [(exEnv, .initialise, exInit)]

theorem exReady_sane : ∀ e ∈ exReady, Sane Merkle.toyHash e := by
  intro e he
  rcases List.mem_cons.1 he with rfl | he
  · exact exInit_sane (Or.inr rfl)
  · cases he

def answered : List Out → Option Msg
  | [] => none
  | .message r :: _ => some r
  | _ :: outs => answered outs

theorem answered_mem : ∀ {outs : List Out} {r : Msg}, answered outs = some r → .message r ∈ outs
  | [], r, h => by cases h
  | x :: outs, r, h => by
    cases x
    case message r' => unfold answered at h; cases h; simp
    all_goals exact List.mem_cons_of_mem _ (answered_mem (by unfold answered at h; exact h))

def firstAsked : List Out → Option (Id × Msg)
  | [] => none
  | .asked g req :: _ => some (g, req)
  | _ :: outs => firstAsked outs

theorem firstAsked_mem : ∀ {outs : List Out} {g : Id} {req : Msg}, firstAsked outs = some (g, req) → .asked g req ∈ outs
  | [], _, _, h => by cases h
  | x :: outs, g, req, h => by
    cases x
    case asked => unfold firstAsked at h; cases h; simp
    all_goals exact List.mem_cons_of_mem _ (firstAsked_mem (by unfold firstAsked at h; exact h))

def exReadyFacts (c : Core) : Bool :=
  decide (c.id = some (exId 1)) && decide (c.key = some (Offer.exKey, 1)) && (mget c.offers.dht (Ids.toStr (exId 2))).isNone &&
  (answered (serve exEnv c .publishDht exPublishTwo).2).isSome && decide ((firstAsked (serve exEnv c .publishDht exPublishTwo).2).map (·.1) = some (exId 3)) &&
  (answered (serve exEnv c .publishDht exPublish).2).isSome && decide ((firstAsked (serve exEnv c .publishDht exPublish).2).map (·.1) = some (exId 3))

theorem exReady_facts : exReadyFacts (serveAll newCore exReady).1 = true := by decide +kernel

theorem exReady_use : CanSign exEnv (serveAll newCore exReady).1 ∧ mget (serveAll newCore exReady).1.offers.dht (Ids.toStr (exId 2)) = none ∧
    (∃ r, .message r ∈ (serve exEnv (serveAll newCore exReady).1 .publishDht exPublishTwo).2) ∧
    (∃ req, .asked (exId 3) req ∈ (serve exEnv (serveAll newCore exReady).1 .publishDht exPublishTwo).2) ∧
    (∃ r, .message r ∈ (serve exEnv (serveAll newCore exReady).1 .publishDht exPublish).2) ∧
    (∃ req, .asked (exId 3) req ∈ (serve exEnv (serveAll newCore exReady).1 .publishDht exPublish).2) := by
  have h := exReady_facts
  generalize (serveAll newCore exReady).1 = c at h ⊢
  unfold exReadyFacts at h
  simp only [Bool.and_eq_true] at h
  obtain ⟨⟨⟨⟨⟨⟨h1, h2⟩, h3⟩, h4⟩, h5⟩, h6⟩, h7⟩ := h
  have ask : ∀ outs, (firstAsked outs).map (·.1) = some (exId 3) → ∃ req, .asked (exId 3) req ∈ outs := by
    intro outs h
    obtain ⟨⟨g, req⟩, h8, h9⟩ := Option.map_eq_some_iff.1 h
    dsimp only at h9
    subst h9
    exact ⟨req, firstAsked_mem h8⟩
  have ans : ∀ outs, (answered outs).isSome → ∃ r, .message r ∈ outs := by
    intro outs h
    obtain ⟨r, hr⟩ := Option.isSome_iff_exists.1 h
    exact ⟨r, answered_mem hr⟩
  exact ⟨exCanSign rfl (of_decide_eq_true h1) (of_decide_eq_true h2), Option.isNone_iff_eq_none.1 h3, ans _ h4, ask _ (of_decide_eq_true h5), ans _ h6,
    ask _ (of_decide_eq_true h7)⟩

/-- The hypotheses of `C54_refuted` can be met: after offers for the CIDs 2 and 5 were published the store answers a lookup of 2 with offers for 5. -/
example : ∃ mgr os, OfferMgr.getDht exEnv.H512 (deref (serve exEnv (serveAll newCore exReady).1 .publishDht exPublishTwo).1.heap) exEnv.order exEnv.now
    (serve exEnv (serveAll newCore exReady).1 .publishDht exPublishTwo).1.offers (exId 2) = .ok (mgr, os, true) ∧ os ≠ [] ∧ ∀ o ∈ os, o.cids = [exId 5] := by
  obtain ⟨-, hf, ⟨r, hr⟩, -⟩ := exReady_use
  have hun : ∀ e ∈ [(2000 : Int), 3000], Offer.hasExpired e exEnv.now.sec exEnv.now.nsec = false := by decide
  exact (C54_refuted Merkle.toyHash exReady exReady_sane exEnv exPublishTwo r (exPublishTwo_sane (Or.inr rfl)) _ _ _ _ exPublishTwo_decode (by simp) hr
    (exId 2) hf).2 (by simp) hun exEnv (fun _ => .refl _) hun

/-- Those of `C54_partial`, with any number of further listings. -/
example (n : Nat) : ∃ o d, Made exEnv (serveAll newCore exReady).1 [exId 2] 5 2000 3 o ∧ Offer.digest exEnv.H512 o = .ok d := by
  obtain ⟨-, hf, -, -, ⟨r, hr⟩, -⟩ := exReady_use
  obtain ⟨o, d, h1, h2, -⟩ := C54_partial Merkle.toyHash exEnv.H512 exReady (List.replicate n (exEnv, .listDht, exList)) exEnv exPublish r exReady_sane (exPublish_sane (Or.inr rfl))
    (fun e he => by rw [(List.mem_replicate.1 he).2]; exact exList_sane (Or.inr rfl)) rfl (fun e he => by rw [(List.mem_replicate.1 he).2])
    (exId 2) 5 2000 3 exPublish_decode hr hf (by decide) (fun e he => by rw [(List.mem_replicate.1 he).2]; decide)
  exact ⟨o, d, h1, h2⟩

theorem exAck_signed (req : Msg) : SignedBy exEnv (exId 3) (exAck req) :=
  ⟨exPub, exRegistered rfl, exMsg_signed (C30_providerPublishDHTOfferResponse _ defaultProtocolOk _ _ ⟨by decide, by decide⟩)⟩

def exAsk : Msg := exMsg clientDHTOfferAckRequest (some (exId 2), some (exId 3))

theorem exAsk_decode : decode clientDHTOfferAckRequest exAsk = .ok (some (exId 2), some (exId 3)) :=
  exMsg_decode (C30_clientDHTOfferAckRequest _ defaultProtocolOk _ _ (exIdOk 2) (exIdOk 3))

/-- Those of `C55_partial` and `C57_complete_partial`: an offer for the CID 2 is sent to the gateway 3, which acknowledges it. -/
theorem exPublish_asked : ∃ req offers o, .asked (exId 3) req ∈ (serve exEnv (serveAll newCore exReady).1 .publishDht exPublish).2 ∧
    Carries exEnv req offers ∧ o ∈ offers ∧ o.cids = [exId 2] := by
  obtain ⟨hsign, -, -, -, ⟨r, hr⟩, ⟨req, ha⟩⟩ := exReady_use
  obtain ⟨offers, o, h1, h2, h3⟩ := C104_refuted Merkle.toyHash exReady exReady_sane exEnv exPublish r (exPublish_sane (Or.inr rfl)) hsign _ _ _ _ exPublish_decode hr _ _ ha (exId 2) (by simp)
  exact ⟨req, offers, o, ha, h1, h2, h3⟩

example : ∃ r req' ack', (serve exEnv (serveAll newCore exHist).1 .offerAck exAsk).2 = [.message r] ∧
    decode clientDHTOfferAckResponse r = .ok (some (exId 2), some (exId 3), true, some req', some ack') := by
  obtain ⟨req, offers, o, h1, h2, h3, h4⟩ := exPublish_asked
  obtain ⟨r, req', ack', h5, h6, -⟩ := C55_partial Merkle.toyHash exReady [] exEnv exPublish exReady_sane (exPublish_sane (Or.inr rfl)) (by simp) (exId 3) req h1
    (fun n => ⟨exAck req, rfl, exAck_signed req, exAck_acknowledges rfl rfl req⟩) offers h2 o h3 (exId 2) h4 exEnv defaultProtocolOk (exGood_signs rfl exHist_good)
    exAsk exAsk_decode
  exact ⟨r, req', ack', h5, h6⟩

example : ∃ o, o.cids = [exId 2] ∧ o ∈ confirmedBy (exId 3) (serveAll newCore exHist).2 := by
  obtain ⟨req, offers, o, h1, h2, h3, h4⟩ := exPublish_asked
  exact ⟨o, h4, C57_complete_partial Merkle.toyHash exReady [] exEnv exPublish exReady_sane (exPublish_sane (Or.inr rfl)) (exId 3) req h1
    (fun n => ⟨exAck req, rfl, exAck_signed req, exAck_acknowledges rfl rfl req⟩) offers h2 o h3⟩

/-- Those of `C55_genuine`. -/
example : ∃ r found req ack, (serve exEnv (serveAll newCore exHistAlone).1 .offerAck exAsk).2 = [.message r] ∧
    decode clientDHTOfferAckResponse r = .ok (some (exId 2), some (exId 3), found, some req, some ack) := by
  obtain ⟨r, found, req, ack, h1, h2, -⟩ := C55_genuine Merkle.toyHash exHistAlone exHistAlone_sane exEnv defaultProtocolOk
    (exGood_signs rfl exHistAlone_good) exAsk _ _ exAsk_decode
  exact ⟨r, found, req, ack, h1, h2⟩

/-- Those of `C57_answer`. -/
example : ∃ r found offers, (serve exEnv (serveAll newCore exHist).1 .getPublished (exMsg providerAdminGetPublishedOfferRequest [exId 3])) =
      ((serveAll newCore exHist).1, [.message r]) ∧
    decode (providerAdminGetPublishedOfferResponse Merkle.toyHash) r = .ok (found, offers) := by
  have hd : decode providerAdminGetPublishedOfferRequest (exMsg providerAdminGetPublishedOfferRequest [exId 3]) = .ok [exId 3] :=
    exMsg_decode (C30_providerAdminGetPublishedOfferRequest _ defaultProtocolOk _ (by intro p hp; simp at hp; subst hp; exact exId_proper 3))
  obtain ⟨r, found, offers, h1, h2, -⟩ := C57_answer Merkle.toyHash exHist exHist_sane exEnv _ (exSane_of (Or.inr rfl) (by
      intro cids price expiry qos h
      have h1 := (Gateway.decode_inv h).1
      have h2 := (Gateway.decode_inv hd).1
      rw [h1] at h2
      exact absurd h2 (by decide))) (exGood_signs rfl exHist_good) _ hd
  exact ⟨r, found, offers, h1, h2⟩

/-- The gateway near every CID is the gateway 4, which acknowledges what it is sent. -/
def exOther : Env :=
  { exEnv with
    gateway := fun i => if i = exId 4 then some exRecord else none
    near := fun _ => some [{ exRecord with nodeID := Ids.toStr (exId 4) }] }

def exHistOther : List (Env × Kind × Msg) := [(exEnv, .initialise, exInit), (exOther, .publishDht, exPublish)]

theorem exHistOther_sane : ∀ e ∈ exHistOther, Sane Merkle.toyHash e := by
  intro e he
  simp [exHistOther] at he
  rcases he with rfl | rfl
  · exact exInit_sane (Or.inr rfl)
  · have := exPublish_sane (E := exEnv) (Or.inr rfl)
    exact ⟨this.1, this.2.1, this.2.2.1, this.2.2.2.1, this.2.2.2.2.1, this.2.2.2.2.2⟩

def exHistOtherFacts : Bool :=
  decide ((serveAll newCore exHistOther).1.id = some (exId 1)) && decide ((serveAll newCore exHistOther).1.key = some (Offer.exKey, 1)) &&
  (match exListed (serveAll newCore exHistOther).1 with
    | some ([o], true) => decide (o.cids = [exId 2])
    | _ => false) &&
  (entry (serveAll newCore exHistOther).1 (Ids.toStr (exId 2)) (Ids.toStr (exId 4))).isSome && (confirmedBy (exId 3) (serveAll newCore exHistOther).2).isEmpty

theorem exHistOther_facts : exHistOtherFacts = true := by decide +kernel

/-- Those of `C57_listing_refuted`: the gateway 4 acknowledged the offer when it was published, the gateway 3 lists it. -/
example : confirmedBy (exId 3) (serveAll newCore (exHistOther ++ [(exEnv, .listDht, exList)])).2 = [] := by
  have h := exHistOther_facts
  unfold exHistOtherFacts at h
  simp only [Bool.and_eq_true] at h
  obtain ⟨⟨⟨⟨h1, h2⟩, h3⟩, h4⟩, h5⟩ := h
  split at h3
  · rename_i o ho
    obtain ⟨mgr, hg⟩ := exListed_some ho
    exact (C57_listing_refuted Merkle.toyHash exHistOther exHistOther_sane exEnv exList (exList_sane (Or.inr rfl)) (exCanSign rfl (of_decide_eq_true h1) (of_decide_eq_true h2))
      (exId 3) (exId 0) (exId 9) _ exList_decode exPub (exList_authentic rfl rfl) mgr [o] hg exEnv_acknowledges (by
        intro o' ho' cid hcid
        simp at ho'
        subst ho'
        rw [of_decide_eq_true h3] at hcid
        cases hcid
        exact ⟨_, h4⟩) (by simpa using h5)).2
  · cases h3

def exGroup : Msg := exMsg providerAdminPublishGroupOfferRequest ([exId 2, exId 5], 5, 2000, 3)

theorem exGroup_decode : decode providerAdminPublishGroupOfferRequest exGroup = .ok ([exId 2, exId 5], 5, 2000, 3) :=
  exMsg_decode (C30_providerAdminPublishGroupOfferRequest _ defaultProtocolOk _ _ _ _ (by
    intro p hp; simp at hp; rcases hp with rfl | rfl
    · exact exId_proper 2
    · exact exId_proper 5) (by decide) ⟨by decide, by decide⟩ (by decide))

/-- Those of `C106_partial`. -/
example : ∃ r, .message r ∈ (serve exEnv (serveAll newCore exReady).1 .publishGroup exGroup).2 ∧ ∃ o, Made exEnv (serveAll newCore exReady).1 [exId 2, exId 5] 5 2000 3 o := by
  have h : (answered (serve exEnv (serveAll newCore exReady).1 .publishGroup exGroup).2).isSome = true := by decide +kernel
  obtain ⟨r, hr⟩ := Option.isSome_iff_exists.1 h
  have hs : Sane Merkle.toyHash (exEnv, .publishGroup, exGroup) := by
    refine exSane_of (Or.inr rfl) ?_
    intro cids price expiry qos h
    have h1 := (Gateway.decode_inv h).1
    have h2 := (Gateway.decode_inv exGroup_decode).1
    rw [h1] at h2
    exact absurd h2 (by decide)
  obtain ⟨o, ho, -⟩ := C106_partial Merkle.toyHash exReady exReady_sane exEnv exGroup r hs exReady_use.1 _ _ _ _ exGroup_decode (answered_mem hr)
  exact ⟨r, answered_mem hr, o, ho⟩

/-- And of `C106_refuted`: a record without an identifier comes first, and the offer is sent to nobody. -/
example (c : Core) (m : Msg) (gid : Id) (req : Msg) :
    .asked gid req ∉ (serve { exEnv with gateways := [{ exRecord with nodeID := "node".toList }, exRecord] } c .publishGroup m).2 := by
  intro h
  obtain ⟨x, hx, -⟩ := (C106_refuted { exEnv with gateways := [{ exRecord with nodeID := "node".toList }, exRecord] } c m [] _ [exRecord] rfl (by decide)).2 gid req h
  cases hx

end FcRetrieval.Provider
