import Verif.Lemmas.ProviderExamples
import Verif.Props.GatewayCrash
/-!
# What a gateway gets from a provider: C53, C56, C74, C103
-/
set_option linter.unusedSimpArgs false

namespace FcRetrieval.Provider
open FcRetrieval.Ids (Id Proper)
open FcRetrieval.Merkle (Hash exId exId_proper)
open FcRetrieval.Crypto (KeyPair)
open FcRetrieval.Message (Msg)
open FcRetrieval.Offer (CidOffer Built)
open FcRetrieval.Wire
open FcRetrieval.Codecs
open FcRetrieval.OfferMgr (Mgr)
open FcRetrieval.Gateway (verify_snd exPub)

/-! ## C53 -/

/-- What `listDht` does once the request is authentic and the store has answered. -/
theorem listDht_open {H : Hash} {E : Env} {c : Core} {m : Msg} (hs : Sane H (E, .listDht, m)) (hk : Kept H c) (hsign : CanSign E c)
    {gid a b : Id} {x} (hd : decode gatewayListDHTOfferRequest m = .ok (some gid, some a, some b, x)) {k : KeyPair}
    (ha : Authentic E (some gid) m k) {mgr : Mgr Nat} {offers : List CidOffer} {found : Bool}
    (hg : OfferMgr.getDhtRange E.H512 (deref c.heap) E.order E.now c.offers a b 500 = .ok (mgr, offers, found)) :
    ∃ (r : Msg) (msgs : List Msg) (parts : List (List CidOffer)), serve E c .listDht m = ((finishListing E k gid { c with offers := mgr } msgs (E.reply r)).1,
        .message r :: (finishListing E k gid { c with offers := mgr } msgs (E.reply r)).2) ∧
      decode gatewayListDHTOfferResponse r = .ok msgs ∧
      msgs.map (decode (providerPublishDHTOfferRequest E.H)) = parts.map (fun p => .ok (c.id, 1, p)) ∧
      parts.flatten = (if found then offers else []) ∧ (∀ p ∈ parts, p ≠ [] ∧ p.length ≤ 50) ∧
      (∀ p ∈ parts, ∀ o ∈ p, ∃ cid, Proper cid ∧ o.cids = [cid]) ∧ (∀ m ∈ msgs, Message.InRange m) ∧
      listMessages E { c with offers := mgr } parts = .ok msgs := by
  obtain ⟨rfl, hord, -, hpr, hex, -⟩ := hs
  dsimp only at *
  obtain ⟨hk', hoff, hf⟩ := kept_range hk hord hg
  have hsign' : CanSign E { c with offers := mgr } := hsign
  obtain ⟨msgs, hm⟩ := listMessages_can hpr hsign' (parts_ok hoff found)
  obtain ⟨hdec, hrng⟩ := listMessages_ok hpr hk'.id (parts_ok hoff found) hm
  obtain ⟨r, hr, -, hdr⟩ := respond_writes (b1 := [.invalid]) (b2 := [.invalid]) hsign' (C30_gatewayListDHTOfferResponse E.pr hpr msgs hrng)
  refine ⟨r, msgs, _, ?_, hdr, hdec, ?_, ?_, ?_, hrng, hm⟩
  · show listDht E c m = _
    unfold listDht
    rw [hd]
    dsimp only
    rw [senderKey_ok.2 ha]
    dsimp only
    rw [hg]
    dsimp only
    rw [hm]
    dsimp only
    rw [hr]
  · split
    · exact chunks_flatten offers
    · rfl
  · intro p hp
    split at hp
    · rename_i hfound
      exact ⟨chunks_ne offers (hf hfound) p hp, chunks_length offers p hp⟩
    · cases hp
  · intro p hp o ho
    obtain ⟨hb, h1⟩ := (parts_ok hoff found p hp).1 o ho
    obtain ⟨cid, hc⟩ := List.length_eq_one_iff.1 h1
    exact ⟨cid, hb.1.2.1 cid (by simp [hc]), hc⟩

/-- C53: after every history, an authentic request to list the offers in a range of CIDs is answered with publish requests, which whoever
reads them finds to hold, one after the other, exactly the offers that the store gives for the range, at most fifty in each; there is
no publish request without an offer. -/
theorem C53_listing (H : Hash) (hist : List (Env × Kind × Msg)) (hist_sane : ∀ e ∈ hist, Sane H e) (E : Env) (m : Msg)
    (hs : Sane H (E, .listDht, m)) (hsign : CanSign E (serveAll newCore hist).1)
    (gid a b : Id) (x) (hd : decode gatewayListDHTOfferRequest m = .ok (some gid, some a, some b, x)) (k : KeyPair)
    (ha : Authentic E (some gid) m k) (mgr : Mgr Nat) (offers : List CidOffer) (found : Bool)
    (hg : OfferMgr.getDhtRange E.H512 (deref (serveAll newCore hist).1.heap) E.order E.now (serveAll newCore hist).1.offers a b 500 =
      .ok (mgr, offers, found)) :
    ∃ (r : Msg) (rest : List Out) (msgs : List Msg) (parts : List (List CidOffer)), (serve E (serveAll newCore hist).1 .listDht m).2 = .message r :: rest ∧
      decode gatewayListDHTOfferResponse r = .ok msgs ∧
      msgs.map (decode (providerPublishDHTOfferRequest H)) = parts.map (fun p => .ok ((serveAll newCore hist).1.id, 1, p)) ∧
      parts.flatten = (if found then offers else []) ∧ ∀ p ∈ parts, p ≠ [] ∧ p.length ≤ 50 := by
  obtain ⟨r, msgs, parts, h1, h2, h3, h4, h5, -⟩ := listDht_open hs (kept_serveAll hist hist_sane (kept_new H)) hsign hd ha hg
  have hH : E.H = H := hs.1
  rw [hH] at h3
  exact ⟨r, _, msgs, parts, by rw [h1], h2, h3, h4, h5⟩

/-- How a full list is split: into as few messages as hold fifty each (500 offers at most, C20). -/
theorem C53_count (offers : List CidOffer) : (chunks offers).length ≤ offers.length / 50 + 1 := chunks_count offers

theorem exHist_signs : CanSign exEnv (serveAll newCore exHist).1 := exGood_signs rfl exHist_good

/-- The hypotheses can be met, by a provider with one offer in the range. -/
example : ∃ (r : Msg) (rest : List Out) (msgs : List Msg) (parts : List (List CidOffer)) (o : CidOffer), (serve exEnv (serveAll newCore exHist).1 .listDht exList).2 = .message r :: rest ∧
    decode gatewayListDHTOfferResponse r = .ok msgs ∧
    msgs.map (decode (providerPublishDHTOfferRequest Merkle.toyHash)) = parts.map (fun p => .ok ((serveAll newCore exHist).1.id, 1, p)) ∧
    parts.flatten = [o] ∧ o.cids = [exId 2] := by
  obtain ⟨mgr, o, hg, ho, -⟩ := exGood_offer exHist_good
  obtain ⟨r, rest, msgs, parts, h1, h2, h3, h4, -⟩ := C53_listing Merkle.toyHash exHist exHist_sane exEnv exList (exList_sane (Or.inr rfl)) exHist_signs
    (exId 3) (exId 0) (exId 9) _ exList_decode exPub (exList_authentic rfl rfl) mgr [o] true hg
  exact ⟨r, rest, msgs, parts, o, h1, h2, h3, h4, ho⟩

/-! ## C74 -/

/-- Acknowledgements that are all valid, until the first offer for whose CID nothing was recorded before. -/
theorem takeAcks_panic {E : Env} {k : KeyPair} {gid : Id} (hr : Registered E gid k) : ∀ (pairs : List (Msg × Msg)) (parts : List (List CidOffer)) (c : Core) pid,
    pairs.map (fun p => decode (providerPublishDHTOfferRequest E.H) p.1) = parts.map (fun p => .ok (pid, (1 : Int), p)) →
    (∀ p ∈ parts, ∀ o ∈ p, ∃ cid, Proper cid ∧ o.cids = [cid]) →
    (∀ p ∈ pairs, Acknowledges E gid p.1 p.2) →
    ((∀ p ∈ parts, ∀ o ∈ p, ∀ cid, o.cids = [cid] → (mget c.acks (Ids.toStr cid)).isSome) → (takeAcks E k gid c pairs).2 = [] ∧
      ∀ p ∈ parts, ∀ o ∈ p, ∀ cid, o.cids = [cid] → (entry (takeAcks E k gid c pairs).1 (Ids.toStr cid) (Ids.toStr gid)).isSome) ∧
    ((∃ p ∈ parts, ∃ o ∈ p, ∃ cid, o.cids = [cid] ∧ mget c.acks (Ids.toStr cid) = none) → (takeAcks E k gid c pairs).2 = [.panic])
  | [], [], c, pid, _, _, _ => by simp [takeAcks]
  | [], _ :: _, c, pid, h, _, _ => by simp at h
  | _ :: _, [], c, pid, h, _, _ => by simp at h
  | (req, ack) :: pairs, part :: parts, c, pid, h, hc, ha => by
    simp only [List.map_cons, List.cons.injEq] at h
    obtain ⟨k', nonce, sig, hr', hdec, hv⟩ := ha (req, ack) (by simp)
    have hkk : k' = k := by
      obtain ⟨r1, h1, h2⟩ := hr
      obtain ⟨r2, h3, h4⟩ := hr'
      rw [h1] at h3
      cases h3
      rw [h2] at h4
      cases h4
      rfl
    subst hkk
    obtain ⟨-, h2, -, h4, h5, h6⟩ := recordListed_spec (gid := gid) (req := req) (ack := ack) part c
    unfold takeAcks
    dsimp only at hdec hv
    rw [hdec]
    dsimp only
    rw [if_pos hv, h.1]
    dsimp only
    generalize hrec : recordListed gid req ack c part = rec at *
    obtain ⟨c', ok⟩ := rec
    dsimp only at h2 h4 h5 h6
    obtain ⟨ih1, ih2⟩ := takeAcks_panic hr pairs parts c' pid h.2 (fun p hp => hc p (by simp [hp])) (fun p hp => ha p (by simp [hp]))
    obtain ⟨-, -, -, hgrow, -⟩ := takeAcks_spec hr pairs c' (by
      intro p hp
      have hp' : decode (providerPublishDHTOfferRequest E.H) p.1 ∈ pairs.map (fun p => decode (providerPublishDHTOfferRequest E.H) p.1) :=
        List.mem_map_of_mem (f := fun p : Msg × Msg => decode (providerPublishDHTOfferRequest E.H) p.1) hp
      rw [h.2] at hp'
      obtain ⟨q, hq, hx⟩ := List.mem_map.1 hp'
      exact ⟨q, ⟨_, _, hx.symm⟩, hc q (by simp [hq])⟩)
    constructor
    · intro hall
      have hok : ok = true := by
        rw [h5]
        intro o ho
        obtain ⟨cid, -, hcid⟩ := hc part (by simp) o ho
        exact ⟨cid, [], hcid, hall part (by simp) o ho cid hcid⟩
      subst hok
      dsimp only
      obtain ⟨e1, e2⟩ := ih1 (fun p hp o ho cid hcid => (h2 _).2 (hall p (by simp [hp]) o ho cid hcid))
      refine ⟨e1, ?_⟩
      intro p hp o ho cid hcid
      rcases List.mem_cons.1 hp with rfl | hp
      · exact hgrow _ _ (h6 rfl o ho cid [] hcid)
      · exact e2 p hp o ho cid hcid
    · rintro ⟨p, hp, o, ho, cid, hcid, hnone⟩
      cases ok with
      | false => rfl
      | true =>
        dsimp only
        rcases List.mem_cons.1 hp with rfl | hp
        · obtain ⟨cid', rest, hx, hsome⟩ := h5.1 rfl o ho
          rw [hcid] at hx
          cases hx
          rw [hnone] at hsome
          cases hsome
        · refine ih2 ⟨p, hp, o, ho, cid, hcid, ?_⟩
          have := h2 (Ids.toStr cid)
          rw [hnone] at this
          cases hm : mget c'.acks (Ids.toStr cid) with
          | none => rfl
          | some v => rw [hm] at this; exact absurd (this.1 rfl) (by simp)

theorem finishListing_acked {E : Env} {k : KeyPair} {gid : Id} {m : Msg} (ha : Authentic E (some gid) m k) (hl : AcknowledgesLists E gid)
    {c : Core} {r : Msg} {msgs : List Msg} (hd : decode gatewayListDHTOfferResponse r = .ok msgs) :
    ∃ acks, finishListing E k gid c msgs (E.reply r) = takeAcks E k gid c (msgs.zip acks) ∧ (∀ {α : Type} (f : Msg → α), (msgs.zip acks).map (fun p => f p.1) = msgs.map f) ∧
      (∀ p ∈ msgs.zip acks, Acknowledges E gid p.1 p.2) ∧ Registered E gid k := by
  obtain ⟨gid', hgid, hreg, -⟩ := ha
  cases hgid
  obtain ⟨reply, acks, h1, ⟨k', hr', hv⟩, h3, h4, h5⟩ := hl r msgs hd
  have hkk : k' = k := by
    obtain ⟨r1, h1, h2⟩ := hreg
    obtain ⟨r2, h3, h4⟩ := hr'
    rw [h1] at h3
    cases h3
    rw [h2] at h4
    cases h4
    rfl
  subst hkk
  refine ⟨acks, ?_, ?_, h5, hreg⟩
  · unfold finishListing
    rw [h1]
    dsimp only
    rw [if_pos (verify_snd.2 hv), h3]
    simp [ackList, h4]
  · intro α f
    have h := congrArg (List.map f) (List.map_fst_zip (l₁ := msgs) (l₂ := acks) (by omega))
    rw [List.map_map] at h
    exact h

/-- **C74 is false**: a gateway that lists the offers of a provider and acknowledges them, as the protocol wants it to, crashes the
provider if among them is an offer for a CID of which no gateway acknowledged an offer before.  The answer has been written by then. -/
theorem C74_refuted (H : Hash) (hist : List (Env × Kind × Msg)) (hist_sane : ∀ e ∈ hist, Sane H e) (E : Env) (m : Msg)
    (hs : Sane H (E, .listDht, m)) (hsign : CanSign E (serveAll newCore hist).1)
    (gid a b : Id) (x) (hd : decode gatewayListDHTOfferRequest m = .ok (some gid, some a, some b, x)) (k : KeyPair)
    (ha : Authentic E (some gid) m k) (mgr : Mgr Nat) (offers : List CidOffer)
    (hg : OfferMgr.getDhtRange E.H512 (deref (serveAll newCore hist).1.heap) E.order E.now (serveAll newCore hist).1.offers a b 500 =
      .ok (mgr, offers, true))
    (hl : AcknowledgesLists E gid) (o : CidOffer) (ho : o ∈ offers) (cid : Id) (hcid : o.cids = [cid])
    (hnew : mget (serveAll newCore hist).1.acks (Ids.toStr cid) = none) :
    ∃ r, (serve E (serveAll newCore hist).1 .listDht m).2 = [.message r, .panic] := by
  obtain ⟨r, msgs, parts, h1, h2, h3, h4, -, h6, -⟩ := listDht_open hs (kept_serveAll hist hist_sane (kept_new H)) hsign hd ha hg
  obtain ⟨acks, e1, e2, e3, hreg⟩ := finishListing_acked ha hl (c := { (serveAll newCore hist).1 with offers := mgr }) h2
  refine ⟨r, ?_⟩
  rw [h1, e1]
  dsimp only
  rw [(takeAcks_panic hreg _ parts _ (serveAll newCore hist).1.id (by rw [← h3]; exact e2 _) h6 e3).2]
  rw [if_pos rfl] at h4
  rw [← h4] at ho
  obtain ⟨p, hp, hop⟩ := List.mem_flatten.1 ho
  exact ⟨p, hp, o, hop, cid, hcid, hnew⟩

/-- C74 for offers of which some gateway has acknowledged one before for the same CID: nothing crashes, the listing ends without
error, and from then on the provider has an acknowledgement of the listing gateway for every CID listed.

Missing: offers that nobody acknowledged yet, which is what listing is for (`C74_refuted`), and a store in which an expired offer is
filed under the CID of another (`C74_expired_refuted`; the hypothesis on the store excludes it). -/
theorem C74_partial (H : Hash) (hist : List (Env × Kind × Msg)) (hist_sane : ∀ e ∈ hist, Sane H e) (E : Env) (m : Msg)
    (hs : Sane H (E, .listDht, m)) (hsign : CanSign E (serveAll newCore hist).1)
    (gid a b : Id) (x) (hd : decode gatewayListDHTOfferRequest m = .ok (some gid, some a, some b, x)) (k : KeyPair)
    (ha : Authentic E (some gid) m k) (mgr : Mgr Nat) (offers : List CidOffer)
    (hg : OfferMgr.getDhtRange E.H512 (deref (serveAll newCore hist).1.heap) E.order E.now (serveAll newCore hist).1.offers a b 500 =
      .ok (mgr, offers, true))
    (hl : AcknowledgesLists E gid)
    (hold : ∀ o ∈ offers, ∀ cid, o.cids = [cid] → ∃ g, (entry (serveAll newCore hist).1 (Ids.toStr cid) g).isSome) :
    ∃ r, (serve E (serveAll newCore hist).1 .listDht m).2 = [.message r] ∧
      ∀ o ∈ offers, ∀ cid, o.cids = [cid] → (entry (serve E (serveAll newCore hist).1 .listDht m).1 (Ids.toStr cid) (Ids.toStr gid)).isSome := by
  obtain ⟨r, msgs, parts, h1, h2, h3, h4, -, h6, -⟩ := listDht_open hs (kept_serveAll hist hist_sane (kept_new H)) hsign hd ha hg
  obtain ⟨acks, e1, e2, e3, hreg⟩ := finishListing_acked ha hl (c := { (serveAll newCore hist).1 with offers := mgr }) h2
  rw [if_pos rfl] at h4
  have hmem : ∀ p ∈ parts, ∀ o ∈ p, o ∈ offers := by
    intro p hp o ho
    rw [← h4]
    exact List.mem_flatten.2 ⟨p, hp, ho⟩
  obtain ⟨f1, f2⟩ := (takeAcks_panic hreg _ parts { (serveAll newCore hist).1 with offers := mgr } (serveAll newCore hist).1.id
    (by rw [← h3]; exact e2 _) h6 e3).1 (by
      intro p hp o ho cid hcid
      obtain ⟨g, hg⟩ := hold o (hmem p hp o ho) cid hcid
      unfold entry at hg
      cases hm : mget (serveAll newCore hist).1.acks (Ids.toStr cid) with
      | none => rw [hm] at hg; cases hg
      | some v => rfl)
  refine ⟨r, ?_, ?_⟩
  · rw [h1, e1]
    dsimp only
    rw [f1]
  · intro o ho cid hcid
    rw [← h4] at ho
    obtain ⟨p, hp, hop⟩ := List.mem_flatten.1 ho
    rw [h1, e1]
    exact f2 p hp o hop cid hcid

/-- The hypotheses of `C74_refuted` can be met: no gateway was reachable when the offer was published. -/
example : ∃ r, (serve exEnv (serveAll newCore exHistAlone).1 .listDht exList).2 = [.message r, .panic] := by
  obtain ⟨mgr, o, hg, ho, hn, -⟩ := exGood_offer exHistAlone_good
  exact C74_refuted Merkle.toyHash exHistAlone exHistAlone_sane exEnv exList (exList_sane (Or.inr rfl)) (exGood_signs rfl exHistAlone_good)
    (exId 3) (exId 0) (exId 9) _ exList_decode exPub (exList_authentic rfl rfl) mgr [o] hg exEnv_acknowledges o (by simp) (exId 2)
    ho (by simpa using hn)

/-- And those of `C74_partial`: a gateway acknowledged the offer when it was published. -/
example : ∃ r, (serve exEnv (serveAll newCore exHist).1 .listDht exList).2 = [.message r] := by
  obtain ⟨mgr, o, hg, ho, -, hn⟩ := exGood_offer exHist_good
  obtain ⟨r, hr, -⟩ := C74_partial Merkle.toyHash exHist exHist_sane exEnv exList (exList_sane (Or.inr rfl)) exHist_signs
    (exId 3) (exId 0) (exId 9) _ exList_decode exPub (exList_authentic rfl rfl) mgr [o] hg exEnv_acknowledges (by
      intro o' ho' cid hcid
      simp at ho'
      subst ho'
      rw [ho] at hcid
      cases hcid
      exact ⟨_, hn⟩)
  exact ⟨r, hr⟩

/-- Two offers, of which the second has expired. -/
def exPublishLate : Msg := exMsg providerAdminPublishDHTOfferRequest ([exId 2, exId 5], [5, 6], [2000, 500], [3, 4])

/-- **C74 is false**, in another way: after an admin published two offers of which the second had already expired, the next gateway
that lists the range crashes the provider. -/
theorem C74_expired_refuted : ∃ hist : List (Env × Kind × Msg), (∀ e ∈ hist, Sane Merkle.toyHash e) ∧ Authentic exEnv (some (exId 3)) exList exPub ∧
    Sane Merkle.toyHash (exEnv, .listDht, exList) ∧ (serve exEnv (serveAll newCore hist).1 .listDht exList).2 = [.panic] := by
  have hlate : decode providerAdminPublishDHTOfferRequest exPublishLate = .ok ([exId 2, exId 5], [5, 6], [2000, 500], [3, 4]) :=
    exMsg_decode (C30_providerAdminPublishDHTOfferRequest _ defaultProtocolOk _ _ _ _ (by
      intro p hp; simp at hp; rcases hp with rfl | rfl
      · exact exId_proper 2
      · exact exId_proper 5)
      (by decide) (by unfold inI64; decide) (by decide))
  refine ⟨[(exAlone, .initialise, exInit), (exAlone, .publishDht, exPublishLate)], ?_, exList_authentic rfl rfl, exList_sane (Or.inr rfl), ?_⟩
  · intro e he
    simp at he
    rcases he with rfl | rfl
    · exact exInit_sane (Or.inl rfl)
    · refine exSane_of (Or.inl rfl) ?_
      intro cids price expiry qos h
      rw [hlate] at h
      cases h
      exact ⟨by decide, by decide⟩
  · have key : ∀ l : List Out, (match l with | [.panic] => true | _ => false) = true → l = [.panic] := by
      intro l h
      split at h
      · rfl
      · cases h
    exact key _ (by decide +kernel)

/-! ## C103 -/

/-- **C103 is false**: whoever can open a connection to a provider, registered or not, crashes it with one unsigned message, in
whatever state it is. -/
theorem C103_refuted (E : Env) (c : Core) :
    serve E c .listDht (Gateway.exBadGateway 200) = (c, [.panic]) ∧ serve E c .notifyGroup (Gateway.exBadGateway 205) = (c, [.panic]) := by
  have h1 : (match decode gatewayListDHTOfferRequest (Gateway.exBadGateway 200) with | .ok (none, _) => true | _ => false) = true := by decide +kernel
  have h2 : (match decode gatewayNotifyProviderGroupCIDOfferSupportRequest (Gateway.exBadGateway 205) with | .ok (none, _) => true | _ => false) = true := by
    decide +kernel
  refine ⟨?_, ?_⟩
  · split at h1
    · rename_i hd
      simp only [serve, listDht, hd, senderKey]
    · cases h1
  · split at h2
    · rename_i hd
      simp only [serve, notifyGroup, hd, senderKey]
    · cases h2

/-- C103 before the admin sets the key: a registered gateway that announces its support of group offers crashes the provider. -/
theorem C103_uninitialised_refuted (E : Env) (c : Core) (hkey : c.key = none) (m : Msg) (gid : Id) (b : Bool) (k : KeyPair)
    (hd : decode gatewayNotifyProviderGroupCIDOfferSupportRequest m = .ok (some gid, b)) (ha : Authentic E (some gid) m k) :
    (serve E c .notifyGroup m).2 = [.panic] := by
  show (notifyGroup E c m).2 = _
  unfold notifyGroup
  rw [hd]
  dsimp only
  rw [senderKey_ok.2 ha]
  obtain ⟨r, hr⟩ : ∃ r, encode gatewayNotifyProviderGroupCIDOfferSupportResponse E.pr true = .ok r := ⟨_, rfl⟩
  simp [respond, hr, signMsg, hkey]

theorem senderKey_calm {E : Env} {gid : Id} {m : Msg} (hkeys : ∀ i r, E.gateway i = some r → Crypto.decodePublicKey r.signingKey ≠ .panic) :
    senderKey E (some gid) m ≠ .panic := by
  dsimp only [senderKey, gatewayKey]
  cases hl : E.gateway gid with
  | none => simp [Res.bind_err]
  | some r =>
    dsimp only
    cases hd : Crypto.decodePublicKey r.signingKey with
    | panic => exact absurd hd (hkeys gid r hl)
    | err => simp [Res.bind_err]
    | ok k =>
      simp only [Res.bind_ok]
      split <;> simp

/-- C103 for a provider that has its key: a support notification whose gateway identifier is hexadecimal of the right length crashes
nothing, and neither does a listing with such an identifier that is not authentic.

Missing: malformed identifiers (`C103_refuted`), and listings by registered gateways (C74). -/
theorem C103_partial (E : Env) (c : Core) (hkey : c.key ≠ none) (m : Msg)
    (hkeys : ∀ i r, E.gateway i = some r → Crypto.decodePublicKey r.signingKey ≠ .panic) :
    (∀ gid b, decode gatewayNotifyProviderGroupCIDOfferSupportRequest m = .ok (some gid, b) → .panic ∉ (serve E c .notifyGroup m).2) ∧
    ∀ gid x, decode gatewayListDHTOfferRequest m = .ok (some gid, x) → (∀ k, ¬ Authentic E (some gid) m k) →
      serve E c .listDht m = (c, [.invalid]) := by
  refine ⟨?_, ?_⟩
  · intro gid b hd
    show .panic ∉ (notifyGroup E c m).2
    unfold notifyGroup
    rw [hd]
    dsimp only
    have hc := senderKey_calm (m := m) (gid := gid) hkeys
    cases hk : senderKey E (some gid) m with
    | panic => exact absurd hk hc
    | err => simp
    | ok k =>
      dsimp only
      unfold respond
      obtain ⟨r, he⟩ : ∃ r, encode gatewayNotifyProviderGroupCIDOfferSupportResponse E.pr true = .ok r := ⟨_, rfl⟩
      rw [he]
      dsimp only
      unfold signMsg
      dsimp only
      cases hkk : c.key with
      | none => exact absurd hkk hkey
      | some kv =>
        obtain ⟨a, v⟩ := kv
        dsimp only
        cases hs : Message.sign E.P a v r with
        | mk m' ok => cases ok <;> simp
  · intro gid x hd hn
    show listDht E c m = _
    unfold listDht
    obtain ⟨cidMin, cidMax, x⟩ := x
    rw [hd]
    dsimp only
    have hc := senderKey_calm (m := m) (gid := gid) hkeys
    cases hk : senderKey E (some gid) m with
    | panic => exact absurd hk hc
    | err => rfl
    | ok k => exact absurd (senderKey_ok.1 hk) (hn k)

/-! ## C105 -/

/-- C105: a provider acts on a request to list offers, and on a notification of support for group offers, only if the message is signed
with the registered key of the gateway it names: otherwise nothing changes and no answer is given that shows anything. -/
theorem C105_authentic (E : Env) (c : Core) (m : Msg) :
    ((∀ gw x k, decode gatewayListDHTOfferRequest m = .ok (gw, x) → ¬ Authentic E gw m k) →
      (serve E c .listDht m).1 = c ∧ ((serve E c .listDht m).2 = [.invalid] ∨ (serve E c .listDht m).2 = [.panic])) ∧
    ((∀ gw b k, decode gatewayNotifyProviderGroupCIDOfferSupportRequest m = .ok (gw, b) → ¬ Authentic E gw m k) →
      (serve E c .notifyGroup m).1 = c ∧ ((serve E c .notifyGroup m).2 = [.invalid] ∨ (serve E c .notifyGroup m).2 = [.panic])) := by
  refine ⟨?_, ?_⟩
  · intro h
    show (listDht E c m).1 = c ∧ ((listDht E c m).2 = _ ∨ (listDht E c m).2 = _)
    unfold listDht
    split
    · exact ⟨rfl, Or.inr rfl⟩
    · exact ⟨rfl, Or.inl rfl⟩
    · rename_i gw cidMin cidMax x hd
      split
      · rename_i hk
        exact absurd (senderKey_ok.1 hk) (h _ _ _ hd)
      · exact ⟨rfl, Or.inl rfl⟩
      · exact ⟨rfl, Or.inr rfl⟩
  · intro h
    show (notifyGroup E c m).1 = c ∧ ((notifyGroup E c m).2 = _ ∨ (notifyGroup E c m).2 = _)
    unfold notifyGroup
    split
    · exact ⟨rfl, Or.inr rfl⟩
    · exact ⟨rfl, Or.inl rfl⟩
    · rename_i gw b hd
      split
      · rename_i hk
        exact absurd (senderKey_ok.1 hk) (h _ _ _ hd)
      · exact ⟨rfl, Or.inl rfl⟩
      · exact ⟨rfl, Or.inr rfl⟩

/-- The hypotheses can be met: the gateway is not registered. -/
example : serve { exEnv with gateway := fun _ => none } newCore .listDht exList = (newCore, [.invalid]) := by
  have h := (C103_partial { exEnv with gateway := fun _ => none } { newCore with key := some (Offer.exKey, 1) } (by simp) exList (by simp)).2
    (exId 3) _ exList_decode (by rintro k ⟨g, -, ⟨r, hr, -⟩, -⟩; cases hr)
  obtain ⟨h1, h2⟩ := (C105_authentic { exEnv with gateway := fun _ => none } newCore exList).1 (by
    rintro gw x k - ⟨g, -, ⟨r, hr, -⟩, -⟩; cases hr)
  rcases h2 with h2 | h2
  · exact Prod.ext h1 h2
  · exfalso
    have hd := exList_decode
    simp only [serve, listDht, hd] at h2
    cases h2

/-! ## C56 -/

def exNotify (b : Bool) : Msg := exMsg gatewayNotifyProviderGroupCIDOfferSupportRequest (some (exId 3), b)

/-- **C56 is false**: an authentic notification that a gateway supports group offers, or no longer does, is answered with "acknowledged",
and the provider is afterwards in exactly the same state as before: nothing it does later can depend on the notification. -/
theorem C56_refuted (E : Env) (hpr : ProtocolOk E.pr) (c : Core) (hsign : CanSign E c) (m : Msg) (gid : Id) (b : Bool) (k : KeyPair)
    (hd : decode gatewayNotifyProviderGroupCIDOfferSupportRequest m = .ok (some gid, b)) (ha : Authentic E (some gid) m k) :
    ∃ r, serve E c .notifyGroup m = (c, [.message r]) ∧ decode gatewayNotifyProviderGroupCIDOfferSupportResponse r = .ok true := by
  obtain ⟨r, hr, -, hdr⟩ := respond_writes (b1 := [.invalid]) (b2 := [.invalid]) hsign
    (C30_gatewayNotifyProviderGroupCIDOfferSupportResponse_partial E.pr hpr)
  refine ⟨r, ?_, hdr⟩
  show notifyGroup E c m = _
  unfold notifyGroup
  rw [hd]
  dsimp only
  rw [senderKey_ok.2 ha]
  dsimp only
  have : { c with groupGateways := (updateGroup b c.groupGateways gid).1 } = c := by
    simp [updateGroup, existsIn]
  rw [this, hr]

/-- So after every history the list of supporting gateways is empty. -/
theorem C56_never_refuted (H : Hash) : ∀ (hist : List (Env × Kind × Msg)), (∀ e ∈ hist, Sane H e) → (serveAll newCore hist).1.groupGateways = [] := by
  have key : ∀ (hist : List (Env × Kind × Msg)) (c : Core), (∀ e ∈ hist, Sane H e) → Kept H c → (serveAll c hist).1.groupGateways = c.groupGateways := by
    intro hist
    induction hist with
    | nil => intro c _ _; rfl
    | cons e hist ih =>
      intro c hs hk
      obtain ⟨E, k, m⟩ := e
      have h1 := stepped_serve (hs (E, k, m) (by simp)) hk
      unfold serveAll
      exact (ih _ (fun e he => hs e (by simp [he])) h1.kept).trans h1.group
  exact fun hist hs => key hist newCore hs (kept_new H)

/-- The hypotheses can be met. -/
example : ∃ r, serve exEnv (serveAll newCore exHist).1 .notifyGroup (exNotify true) = ((serveAll newCore exHist).1, [.message r]) := by
  have hdel := C30_gatewayNotifyProviderGroupCIDOfferSupportRequest Message.defaultProtocol defaultProtocolOk (some (exId 3)) true (exIdOk 3)
  obtain ⟨r, hr, -⟩ := C56_refuted exEnv defaultProtocolOk (serveAll newCore exHist).1 exHist_signs (exNotify true) (exId 3) true exPub (exMsg_decode hdel)
    ⟨exId 3, rfl, exRegistered rfl, exMsg_signed hdel⟩
  exact ⟨r, hr⟩
example : (serve exEnv newCore .notifyGroup (exNotify true)).2 = [.panic] := by
  have hdel := C30_gatewayNotifyProviderGroupCIDOfferSupportRequest Message.defaultProtocol defaultProtocolOk (some (exId 3)) true (exIdOk 3)
  exact C103_uninitialised_refuted exEnv newCore rfl (exNotify true) (exId 3) true exPub (exMsg_decode hdel)
    ⟨exId 3, rfl, exRegistered rfl, exMsg_signed hdel⟩

end FcRetrieval.Provider
