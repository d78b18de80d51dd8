import Verif.Lemmas.GatewayExamples
/-!
# C49, C50, C51: what a gateway asks for, and what it gives
-/
set_option linter.unusedSimpArgs false

namespace FcRetrieval.Gateway
open FcRetrieval.Ids (Id)
open FcRetrieval.Merkle (Hash)
open FcRetrieval.Message (Msg Protocol)
open FcRetrieval.Offer (CidOffer SubOffer)
open FcRetrieval.Wire
open FcRetrieval.Codecs
open FcRetrieval.Register (Record)
open FcRetrieval.Payment (RecvOut)
open FcRetrieval.Merkle (exId exId_proper)

variable {Sig : Type}

/-! ## C49 -/

/-- The standard discovery for digests gives digests only to a client that paid the price of a search. -/
theorem C49_standardV2_partial (E : Env Sig) (hpr : ProtocolOk E.pr) (c : Core Sig) (m m' : Msg)
    (hw : Out.message m' ∈ (standardV2 E c m).2) (hd : Discloses m') :
    ∃ cid nonce ttl channel voucher, decode clientStandardDiscoverRequestV2 m = .ok (cid, nonce, ttl, channel, voucher) ∧
      E.now ≤ ttl ∧ Pays E c channel voucher c.searchPrice := by
  unfold standardV2 at hw
  split at hw
  · simp at hw
  · simp at hw
  rename_i cid nonce ttl channel voucher hreq
  split at hw
  · simp at hw
  rename_i httl
  split at hw
  · simp at hw
  rename_i id
  obtain ⟨hid, hn⟩ := standardV2_req hreq
  have hshort : ∀ found, ¬ Out.message m' ∈ respond E c clientStandardDiscoverResponseV2 (Out.status 400) (Out.status 500)
      (some id, nonce, found, [], [], true, channel) := by
    intro found hm
    obtain ⟨ht, hdec⟩ := respond_decode (by simp) (by simp)
      (C30_clientStandardDiscoverResponseV2 E.pr hpr (some id) nonce found [] [] true channel ⟨id, rfl, hid id rfl⟩ hn) hm
    obtain ⟨a, ha, hne⟩ := (discloses_kind hd).2.1 ht
    rw [hdec] at ha
    cases ha
    exact hne rfl
  split at hw
  · dsimp only at hw
    split at hw
    · simp at hw
    · exact absurd hw (hshort _)
    · rename_i c' amount hrec
      split at hw
      · rename_i hge
        exact ⟨some id, nonce, ttl, channel, voucher, hreq, by omega, amount, receive_snd hrec, hge⟩
      · exact absurd hw (hshort _)
  · simp at hw

/-- The standard discovery for offers gives offers only to a client that paid the price of every offer it asked for. -/
theorem C49_standardOffer_partial (E : Env Sig) (hpr : ProtocolOk E.pr) (c : Core Sig) (m m' : Msg)
    (hw : Out.message m' ∈ (standardOffer E c m).2) (hd : Discloses m') :
    ∃ cid nonce ttl ds channel voucher, decode clientStandardDiscoverOfferRequest m = .ok (cid, nonce, ttl, ds, channel, voucher) ∧
      E.now ≤ ttl ∧ Pays E c channel voucher (c.offerPrice * ds.length) := by
  unfold standardOffer at hw
  split at hw
  · simp at hw
  · simp at hw
  rename_i cid nonce ttl ds channel voucher hreq
  split at hw
  · simp at hw
  rename_i httl
  obtain ⟨hid, hn⟩ := standardOffer_req hreq
  have hshort : ¬ Out.message m' ∈ respond E c clientStandardDiscoverOfferResponse (Out.status 400) (Out.status 500)
      (cid, nonce, false, [], [], true, channel) := by
    intro hm
    cases cid with
    | none =>
      have he : encode clientStandardDiscoverOfferResponse E.pr (none, nonce, false, [], [], true, channel) = .panic := rfl
      simp [respond, he] at hm
    | some id =>
      obtain ⟨ht, hdec⟩ := respond_decode (by simp) (by simp)
        (C30_clientStandardDiscoverOfferResponse E.pr hpr (some id) nonce false [] [] true channel ⟨id, rfl, hid id rfl⟩ hn (by simp)) hm
      obtain ⟨a, ha, hne⟩ := (discloses_kind hd).2.2.1 ht
      rw [hdec] at ha
      cases ha
      exact hne rfl
  dsimp only at hw
  split at hw
  · simp at hw
  · exact absurd hw hshort
  · rename_i c' amount hrec
    split at hw
    · rename_i hge
      exact ⟨cid, nonce, ttl, ds, channel, voucher, hreq, by omega, amount, receive_snd hrec, hge⟩
    · exact absurd hw hshort

/-- The digests of a list of offers, as text. -/
def digestTexts (E : Env Sig) (l : List CidOffer) : List (List Char) :=
  l.map (fun o => Offer.encodeDigest (match Offer.digest E.H512 o with | .ok d => d | _ => []))

theorem digests_eq (E : Env Sig) : ∀ l : List CidOffer, (∀ o ∈ l, o.providerID ≠ none) → digests E l = .ok (digestTexts E l)
  | [], _ => rfl
  | o :: l, hl => by
    have ho : ∃ d, Offer.digest E.H512 o = .ok d := by
      unfold Offer.digest Offer.digestInput
      cases hp : o.providerID with
      | none => exact absurd hp (hl o (by simp))
      | some p => exact ⟨_, rfl⟩
    obtain ⟨d, hd⟩ := ho
    simp only [digests, digestTexts, hd, Res.bind_ok, digests_eq E l (fun o ho => hl o (by simp [ho])), Res.pure_ok, List.map_cons]

/-- A client that pays the price of a search in time gets the digests of all offers found. -/
theorem C49_standardV2_served (E : Env Sig) (hpr : ProtocolOk E.pr) (c : Core Sig) (hk : CanSign E c) (m : Msg) (id : Id) (nonce ttl : Int)
    (channel voucher : List Char) (hreq : decode clientStandardDiscoverRequestV2 m = .ok (some id, nonce, ttl, channel, voucher))
    (httl : E.now ≤ ttl) (hpay : Pays E c channel voucher c.searchPrice) (offers : List CidOffer) (found : Bool)
    (hoff : SqlOffer.getOffers E.H E.order E.off E.now c.db id = .ok (offers, found)) (hprov : ∀ o ∈ offers, o.providerID ≠ none) :
    ∃ m', (standardV2 E c m).2 = [.message m'] ∧
      decode clientStandardDiscoverResponseV2 m' = .ok (some id, nonce, found, digestTexts E offers, offers.map (fun _ => false), false, []) := by
  obtain ⟨amount, hcred, hge⟩ := hpay
  obtain ⟨hid, hn⟩ := standardV2_req hreq
  obtain ⟨m', hm, -, hdec⟩ := respond_writes (b1 := Out.status 400) (b2 := Out.status 500) hk
    (C30_clientStandardDiscoverResponseV2 E.pr hpr (some id) nonce found (digestTexts E offers)
      (offers.map (fun _ => false)) false [] ⟨id, rfl, hid id rfl⟩ hn)
  refine ⟨m', ?_, hdec⟩
  unfold standardV2
  rw [hreq]
  dsimp only
  rw [if_neg (by omega)]
  simp only [getOffers, hoff]
  rw [receive_credited hcred]
  dsimp only
  rw [if_pos hge, digests_eq E offers hprov]
  exact hm

theorem offersByDigest_eq (E : Env Sig) (c : Core Sig) (id : Id) : ∀ (ds : List (List Char)) (offers : List CidOffer),
    ds.map (fun d => SqlOffer.getByDigest E.H E.order E.off E.now c.db (readDigest E d)) = offers.map (fun o => .ok (some o)) →
    offersByDigest E c (some id) ds = .ok (offers.map (fun o => Offer.subOffer E.H o id))
  | [], [], _ => rfl
  | [], _ :: _, h => by simp at h
  | _ :: _, [], h => by simp at h
  | d :: ds, o :: offers, h => by
    simp only [List.map_cons, List.cons.injEq] at h
    unfold offersByDigest
    rw [h.1]
    dsimp only
    rw [offersByDigest_eq E c id ds offers h.2]
    rfl

/-- A client that pays the price of the offers it names gets them all. -/
theorem C49_standardOffer_served (E : Env Sig) (hpr : ProtocolOk E.pr) (c : Core Sig) (hk : CanSign E c) (m : Msg) (id : Id) (nonce ttl : Int)
    (ds : List (List Char)) (channel voucher : List Char)
    (hreq : decode clientStandardDiscoverOfferRequest m = .ok (some id, nonce, ttl, ds, channel, voucher))
    (httl : E.now ≤ ttl) (hpay : Pays E c channel voucher (c.offerPrice * ds.length)) (offers : List CidOffer)
    (hoff : ds.map (fun d => SqlOffer.getByDigest E.H E.order E.off E.now c.db (readDigest E d)) = offers.map (fun o => .ok (some o)))
    (hr : ∀ x ∈ offers.map (fun o => Offer.subOffer E.H o id), Offer.SubInRange x) :
    ∃ m', (standardOffer E c m).2 = [.message m'] ∧
      decode clientStandardDiscoverOfferResponse m' =
        .ok (some id, nonce, !ds.isEmpty, offers.map (fun o => Offer.subOffer E.H o id), ds.map (fun _ => true), false, []) := by
  obtain ⟨amount, hcred, hge⟩ := hpay
  obtain ⟨hid, hn⟩ := standardOffer_req hreq
  obtain ⟨m', hm, -, hdec⟩ := respond_writes (b1 := Out.status 400) (b2 := Out.status 500) hk
    (C30_clientStandardDiscoverOfferResponse E.pr hpr (some id) nonce (!ds.isEmpty) (offers.map (fun o => Offer.subOffer E.H o id))
      (ds.map (fun _ => true)) false [] ⟨id, rfl, hid id rfl⟩ hn hr)
  refine ⟨m', ?_, hdec⟩
  unfold standardOffer
  rw [hreq]
  dsimp only
  rw [if_neg (by omega), receive_credited hcred]
  dsimp only
  rw [if_pos hge, offersByDigest_eq E c id ds offers hoff]
  exact hm

/-- Against C49: the first version of the standard discovery gives the offers themselves to whoever asks in time, whatever channel
and voucher the request names, and credits nothing. -/
theorem C49_standard_refuted (E : Env Sig) (hpr : ProtocolOk E.pr) (c : Core Sig) (hk : CanSign E c) (m : Msg) (id : Id) (nonce ttl : Int)
    (channel voucher : List Char) (hreq : decode clientStandardDiscoverRequest m = .ok (some id, nonce, ttl, channel, voucher))
    (httl : E.now ≤ ttl) (offers : List CidOffer) (found : Bool)
    (hoff : SqlOffer.getOffers E.H E.order E.off E.now c.db id = .ok (offers, found)) (hne : offers ≠ [])
    (hr : ∀ x ∈ offers.map (fun o => Offer.subOffer E.H o id), Offer.SubInRange x) :
    ∃ m', standard E c m = (c, [.message m']) ∧ Discloses m' ∧
      decode clientStandardDiscoverResponse m' = .ok (some id, nonce, found, offers.map (fun o => Offer.subOffer E.H o id), offers.map (fun _ => false)) := by
  obtain ⟨hid, hn⟩ := standard_req hreq
  obtain ⟨m', hm, -, hdec⟩ := respond_writes (b1 := Out.status 400) (b2 := Out.status 500) hk
    (C30_clientStandardDiscoverResponse E.pr hpr (some id) nonce found (offers.map (fun o => Offer.subOffer E.H o id))
      (offers.map (fun _ => false)) ⟨id, rfl, hid id rfl⟩ hn hr)
  refine ⟨m', ?_, .inl ⟨_, hdec, by simpa using hne⟩, hdec⟩
  unfold standard
  rw [hreq]
  dsimp only
  rw [if_neg (by omega)]
  simp only [getOffers, hoff]
  rw [hm]

/-- Against C49: a gateway that accepts a voucher from another gateway gives it the digests whatever the voucher is worth; the
shortfall only sets a flag in the answer. -/
theorem C49_peerDhtV2_refuted (E : Env Sig) (hpr : ProtocolOk E.pr) (c : Core Sig) (hk : CanSign E c) (m : Msg) (gw : Option Id) (id : Id)
    (nonce ttl : Int) (channel voucher : List Char) (k : Crypto.KeyPair)
    (hreq : decode gatewayDHTDiscoverRequestV2 m = .ok (gw, some id, nonce, ttl, channel, voucher))
    (hauth : Authentic E E.gateway gw m k) (httl : E.now ≤ ttl) (amount : Int) (hpay : Credits E c channel voucher amount)
    (hshort : amount < c.searchPrice) (offers : List CidOffer) (found : Bool)
    (hoff : SqlOffer.getOffers E.H E.order E.off E.now c.db id = .ok (offers, found)) (hne : offers ≠ []) (hprov : ∀ o ∈ offers, o.providerID ≠ none) :
    ∃ m', (peerDhtV2 E c m).2 = [.message m'] ∧ Discloses m' ∧
      decode gatewayDHTDiscoverResponseV2 m' = .ok (some id, nonce, found, digestTexts E offers, offers.map (fun _ => false), true, channel) := by
  obtain ⟨hid, hn⟩ := peerDhtV2_req hreq
  obtain ⟨m', hm, -, hdec⟩ := respond_writes (b1 := Out.invalid) (b2 := Out.invalid) hk
    (C30_gatewayDHTDiscoverResponseV2 E.pr hpr (some id) nonce found (digestTexts E offers)
      (offers.map (fun _ => false)) true channel ⟨id, rfl, hid id rfl⟩ hn)
  refine ⟨m', ?_, .inr (.inr (.inr (.inr (.inr (.inr (.inr (.inl ⟨_, hdec, by simpa [digestTexts] using hne⟩))))))), hdec⟩
  unfold peerDhtV2
  rw [hreq]
  dsimp only
  rw [senderKey_ok.2 hauth]
  dsimp only
  rw [if_neg (by omega), receive_credited hpay]
  simp only [getOffers, hoff]
  rw [digests_eq E offers hprov]
  dsimp only
  rw [if_pos hshort]
  exact hm

/-- The same answer, without the flag, for a gateway that paid. -/
theorem C49_peerDhtV2_served (E : Env Sig) (hpr : ProtocolOk E.pr) (c : Core Sig) (hk : CanSign E c) (m : Msg) (gw : Option Id) (id : Id)
    (nonce ttl : Int) (channel voucher : List Char) (k : Crypto.KeyPair)
    (hreq : decode gatewayDHTDiscoverRequestV2 m = .ok (gw, some id, nonce, ttl, channel, voucher))
    (hauth : Authentic E E.gateway gw m k) (httl : E.now ≤ ttl) (hpay : Pays E c channel voucher c.searchPrice) (offers : List CidOffer) (found : Bool)
    (hoff : SqlOffer.getOffers E.H E.order E.off E.now c.db id = .ok (offers, found)) (hprov : ∀ o ∈ offers, o.providerID ≠ none) :
    ∃ m', (peerDhtV2 E c m).2 = [.message m'] ∧
      decode gatewayDHTDiscoverResponseV2 m' = .ok (some id, nonce, found, digestTexts E offers, offers.map (fun _ => false), false, []) := by
  obtain ⟨hid, hn⟩ := peerDhtV2_req hreq
  obtain ⟨amount, hcred, hge⟩ := hpay
  obtain ⟨m', hm, -, hdec⟩ := respond_writes (b1 := Out.invalid) (b2 := Out.invalid) hk
    (C30_gatewayDHTDiscoverResponseV2 E.pr hpr (some id) nonce found (digestTexts E offers)
      (offers.map (fun _ => false)) false [] ⟨id, rfl, hid id rfl⟩ hn)
  refine ⟨m', ?_, hdec⟩
  unfold peerDhtV2
  rw [hreq]
  dsimp only
  rw [senderKey_ok.2 hauth]
  dsimp only
  rw [if_neg (by omega), receive_credited hcred]
  simp only [getOffers, hoff]
  rw [digests_eq E offers hprov]
  dsimp only
  rw [if_neg (by omega)]
  exact hm

/-- What holds for gateways: digests are given only for a voucher that is accepted. -/
theorem C49_peerDhtV2_partial (E : Env Sig) (c : Core Sig) (m m' : Msg) (hw : Out.message m' ∈ (peerDhtV2 E c m).2) :
    ∃ gw cid nonce ttl channel voucher amount, decode gatewayDHTDiscoverRequestV2 m = .ok (gw, cid, nonce, ttl, channel, voucher) ∧
      Credits E c channel voucher amount := by
  unfold peerDhtV2 at hw
  split at hw
  · simp at hw
  · simp at hw
  rename_i gw cid nonce ttl channel voucher hreq
  split at hw
  · simp at hw
  · simp at hw
  split at hw
  · simp at hw
  split at hw
  · simp at hw
  · simp at hw
  · rename_i c' amount hrec
    exact ⟨gw, cid, nonce, ttl, channel, voucher, amount, hreq, receive_snd hrec⟩

/-- Against C49: the offers themselves are given to another gateway for any voucher that is accepted, whatever it is worth, and
without a signature. -/
theorem C49_peerDhtOffer_refuted (E : Env Sig) (hpr : ProtocolOk E.pr) (c : Core Sig) (hk : CanSign E c) (m : Msg) (id : Id)
    (nonce : Int) (ds : List (List Char)) (channel voucher : List Char)
    (hreq : decode gatewayDHTDiscoverOfferRequest m = .ok (some id, nonce, ds, channel, voucher))
    (amount : Int) (hpay : Credits E c channel voucher amount) (offers : List CidOffer)
    (hoff : ds.map (fun d => SqlOffer.getByDigest E.H E.order E.off E.now c.db (readDigest E d)) = offers.map (fun o => .ok (some o)))
    (hr : ∀ x ∈ offers.map (fun o => Offer.subOffer E.H o id), Offer.SubInRange x) (hne : ds ≠ []) :
    ∃ m' short ch, (peerDhtOffer E c m).2 = [.message m'] ∧ Discloses m' ∧
      decode gatewayDHTDiscoverOfferResponse m' =
        .ok (some id, nonce, true, offers.map (fun o => Offer.subOffer E.H o id), ds.map (fun _ => true), short, ch) ∧
      short = decide (amount < c.offerPrice * ds.length) := by
  obtain ⟨hid, hn⟩ := peerDhtOffer_req hreq
  have hlen : offers ≠ [] := by
    intro h0
    subst h0
    simp at hoff
    exact hne hoff
  have key : ∀ short ch, ∃ m', respond E c gatewayDHTDiscoverOfferResponse Out.invalid Out.invalid
        (some id, nonce, true, offers.map (fun o => Offer.subOffer E.H o id), ds.map (fun _ => true), short, ch) = [.message m'] ∧
      decode gatewayDHTDiscoverOfferResponse m' =
        .ok (some id, nonce, true, offers.map (fun o => Offer.subOffer E.H o id), ds.map (fun _ => true), short, ch) := by
    intro short ch
    obtain ⟨m', hm, -, hdec⟩ := respond_writes (b1 := Out.invalid) (b2 := Out.invalid) hk
      (C30_gatewayDHTDiscoverOfferResponse E.pr hpr (some id) nonce true (offers.map (fun o => Offer.subOffer E.H o id))
        (ds.map (fun _ => true)) short ch ⟨id, rfl, hid id rfl⟩ hn hr)
    exact ⟨m', hm, hdec⟩
  unfold peerDhtOffer
  rw [hreq]
  dsimp only
  rw [receive_credited hpay]
  dsimp only
  rw [offersByDigest_eq E c id ds offers hoff]
  dsimp only
  split
  · rename_i hs
    obtain ⟨m', hm, hdec⟩ := key true channel
    exact ⟨m', true, channel, hm, .inr (.inr (.inr (.inr (.inr (.inr (.inr (.inr ⟨_, hdec, by simpa using hlen⟩))))))), hdec, by simp [hs]⟩
  · rename_i hs
    obtain ⟨m', hm, hdec⟩ := key false []
    exact ⟨m', false, [], hm, .inr (.inr (.inr (.inr (.inr (.inr (.inr (.inr ⟨_, hdec, by simpa using hlen⟩))))))), hdec, by simp [hs]⟩

/-! ### the hypotheses can be met -/

theorem exSingle_named : ∀ o ∈ [exSingle], o.providerID ≠ none := by
  intro o ho
  simp at ho
  subst ho
  simp [exSingle, Offer.exOffer]

/-- The text of the digest of the offer that the example gateway stores. -/
def exDigest : List Char := Offer.encodeDigest (match Offer.digest exEnv.H512 exSingle with | .ok d => d | _ => [])

theorem exCore_byDigest : [exDigest].map (fun d => SqlOffer.getByDigest exEnv.H exEnv.order exEnv.off exEnv.now exCore.db (readDigest exEnv d)) =
    [exSingle].map (fun o => .ok (some o)) := by decide +kernel

/-- A client that pays 5 for a search that costs 3 gets a digest. -/
example : ∃ m m', (standardV2 exEnv exCore m).2 = [.message m'] ∧ Discloses m' := by
  obtain ⟨m, hd⟩ := exDecodes (C30_clientStandardDiscoverRequestV2 exEnv.pr defaultProtocolOk (some (exId 2)) 7 2000 ['c'] ['5']
    (exIdOk 2) ⟨by decide, by decide⟩ ⟨by decide, by decide⟩)
  obtain ⟨m', h1, h2⟩ := C49_standardV2_served exEnv defaultProtocolOk exCore exCore_signs m (exId 2) 7 2000 ['c'] ['5'] hd (by decide)
    ⟨5, exCore_credits5, by decide⟩ [exSingle] true exCore_offers exSingle_named
  exact ⟨m, m', h1, .inr (.inl ⟨_, h2, by simp [digestTexts]⟩)⟩

/-- A client that pays 5 for an offer that costs 2 gets it. -/
example : ∃ m m', (standardOffer exEnv exCore m).2 = [.message m'] ∧ Discloses m' := by
  obtain ⟨m, hd⟩ := exDecodes (C30_clientStandardDiscoverOfferRequest exEnv.pr defaultProtocolOk (some (exId 2)) 7 2000 [exDigest] ['c'] ['5']
    (exIdOk 2) ⟨by decide, by decide⟩ ⟨by decide, by decide⟩)
  obtain ⟨m', h1, h2⟩ := C49_standardOffer_served exEnv defaultProtocolOk exCore exCore_signs m (exId 2) 7 2000 [exDigest] ['c'] ['5'] hd (by decide)
    ⟨5, exCore_credits5, by decide⟩ [exSingle] exCore_byDigest exSub_ok
  exact ⟨m, m', h1, .inr (.inr (.inl ⟨_, h2, by simp⟩))⟩

/-- The first version gives the offer for a voucher that cannot be read. -/
example : ∃ m m', standard exEnv exCore m = (exCore, [.message m']) ∧ Discloses m' := by
  obtain ⟨m, hd⟩ := exDecodes (C30_clientStandardDiscoverRequest exEnv.pr defaultProtocolOk (some (exId 2)) 7 2000 [] []
    (exIdOk 2) ⟨by decide, by decide⟩ ⟨by decide, by decide⟩)
  obtain ⟨m', h1, h2, -⟩ := C49_standard_refuted exEnv defaultProtocolOk exCore exCore_signs m (exId 2) 7 2000 [] [] hd (by decide)
    [exSingle] true exCore_offers (by simp) exSub_ok
  exact ⟨m, m', h1, h2⟩

/-- A gateway that pays 1 for a search that costs 3 gets a digest. -/
example : ∃ m m', (peerDhtV2 exEnv exCore m).2 = [.message m'] ∧ Discloses m' := by
  obtain ⟨m, hd, ha⟩ := exSigned (C30_gatewayDHTDiscoverRequestV2 exEnv.pr defaultProtocolOk (some (exId 3)) (some (exId 2)) 7 2000 ['c'] ['1']
    (exIdOk 3) (exIdOk 2) ⟨by decide, by decide⟩ ⟨by decide, by decide⟩) exEnv.gateway (exId 3) (by simp [exEnv])
  obtain ⟨m', h1, h2, -⟩ := C49_peerDhtV2_refuted exEnv defaultProtocolOk exCore exCore_signs m (some (exId 3)) (exId 2) 7 2000 ['c'] ['1'] exPub hd ha
    (by decide) 1 exCore_credits1 (by decide) [exSingle] true exCore_offers (by simp) exSingle_named
  exact ⟨m, m', h1, h2⟩

/-- Whoever pays 1 for an offer that costs 2 gets it. -/
example : ∃ m m', (peerDhtOffer exEnv exCore m).2 = [.message m'] ∧ Discloses m' := by
  obtain ⟨m, hd⟩ := exDecodes (C30_gatewayDHTDiscoverOfferRequest exEnv.pr defaultProtocolOk (some (exId 2)) 7 [exDigest] ['c'] ['1']
    (exIdOk 2) ⟨by decide, by decide⟩)
  obtain ⟨m', s, ch, h1, h2, -⟩ := C49_peerDhtOffer_refuted exEnv defaultProtocolOk exCore exCore_signs m (exId 2) 7 [exDigest] ['c'] ['1'] hd
    1 exCore_credits1 [exSingle] exCore_byDigest exSub_ok (by simp)
  exact ⟨m, m', h1, h2⟩

/-! ## C51 -/

/-- The gateway answers the first version of the peer discovery only to an authentic request in time. -/
theorem C51_peerDht (E : Env Sig) (c : Core Sig) (m m' : Msg) (hw : Out.message m' ∈ (peerDht E c m).2) :
    ∃ gw cid nonce ttl channel voucher k, decode gatewayDHTDiscoverRequest m = .ok (gw, cid, nonce, ttl, channel, voucher) ∧
      Authentic E E.gateway gw m k ∧ E.now ≤ ttl := by
  unfold peerDht at hw
  split at hw
  · simp at hw
  · simp at hw
  rename_i gw cid nonce ttl channel voucher hreq
  split at hw
  · simp at hw
  · simp at hw
  rename_i k hk
  split at hw
  · simp at hw
  · rename_i httl
    exact ⟨gw, cid, nonce, ttl, channel, voucher, k, hreq, senderKey_ok.1 hk, by omega⟩

/-- The same for the second version; nothing is credited either. -/
theorem C51_peerDhtV2 (E : Env Sig) (c : Core Sig) (m : Msg) (hw : (peerDhtV2 E c m).1 ≠ c ∨ ∃ m', Out.message m' ∈ (peerDhtV2 E c m).2) :
    ∃ gw cid nonce ttl channel voucher k, decode gatewayDHTDiscoverRequestV2 m = .ok (gw, cid, nonce, ttl, channel, voucher) ∧
      Authentic E E.gateway gw m k ∧ E.now ≤ ttl := by
  unfold peerDhtV2 at hw
  split at hw
  · simp at hw
  · simp at hw
  rename_i gw cid nonce ttl channel voucher hreq
  split at hw
  · simp at hw
  · simp at hw
  rename_i k hk
  split at hw
  · simp at hw
  · rename_i httl
    exact ⟨gw, cid, nonce, ttl, channel, voucher, k, hreq, senderKey_ok.1 hk, by omega⟩

/-- An authentic request in time is answered with all offers found (first version). -/
theorem C51_peerDht_served (E : Env Sig) (hpr : ProtocolOk E.pr) (c : Core Sig) (hk : CanSign E c) (m : Msg) (gw : Option Id) (id : Id)
    (nonce ttl : Int) (channel voucher : List Char) (k : Crypto.KeyPair)
    (hreq : decode gatewayDHTDiscoverRequest m = .ok (gw, some id, nonce, ttl, channel, voucher))
    (hauth : Authentic E E.gateway gw m k) (httl : E.now ≤ ttl) (offers : List CidOffer) (found : Bool)
    (hoff : SqlOffer.getOffers E.H E.order E.off E.now c.db id = .ok (offers, found))
    (hr : ∀ x ∈ offers.map (fun o => Offer.subOffer E.H o id), Offer.SubInRange x) :
    ∃ m', peerDht E c m = (c, [.message m']) ∧
      decode gatewayDHTDiscoverResponse m' = .ok (some id, nonce, found, offers.map (fun o => Offer.subOffer E.H o id), offers.map (fun _ => false)) := by
  obtain ⟨hid, hn⟩ := peerDht_req hreq
  obtain ⟨m', hm, -, hdec⟩ := respond_writes (b1 := Out.invalid) (b2 := Out.invalid) hk
    (C30_gatewayDHTDiscoverResponse E.pr hpr (some id) nonce found (offers.map (fun o => Offer.subOffer E.H o id))
      (offers.map (fun _ => false)) ⟨id, rfl, hid id rfl⟩ hn hr)
  refine ⟨m', ?_, hdec⟩
  unfold peerDht
  rw [hreq]
  dsimp only
  rw [senderKey_ok.2 hauth]
  dsimp only
  rw [if_neg (by omega)]
  simp only [getOffers, hoff]
  rw [hm]

/-- The hypotheses can be met. -/
example : ∃ m m', peerDht exEnv exCore m = (exCore, [.message m']) := by
  obtain ⟨m, hd, ha⟩ := exSigned (C30_gatewayDHTDiscoverRequest exEnv.pr defaultProtocolOk (some (exId 3)) (some (exId 2)) 7 2000 [] []
    (exIdOk 3) (exIdOk 2) ⟨by decide, by decide⟩ ⟨by decide, by decide⟩) exEnv.gateway (exId 3) (by simp [exEnv])
  obtain ⟨m', h1, -⟩ := C51_peerDht_served exEnv defaultProtocolOk exCore exCore_signs m (some (exId 3)) (exId 2) 7 2000 [] [] exPub hd ha
    (by decide) [exSingle] true exCore_offers exSub_ok
  exact ⟨m, m', h1⟩

/-- A client request past its time is dropped: nothing is written, nothing changes, nothing is credited or spent. -/
theorem C51_client_expired (E : Env Sig) (c : Core Sig) (m : Msg) :
    (∀ client challenge ttl, decode clientEstablishmentRequest m = .ok (some client, challenge, ttl) → ttl < E.now → establishment E c m = (c, [])) ∧
    (∀ cid nonce ttl ch v, decode clientStandardDiscoverRequest m = .ok (cid, nonce, ttl, ch, v) → ttl < E.now → standard E c m = (c, [])) ∧
    (∀ cid nonce ttl ch v, decode clientStandardDiscoverRequestV2 m = .ok (cid, nonce, ttl, ch, v) → ttl < E.now → standardV2 E c m = (c, [])) ∧
    (∀ cid nonce ttl ds ch v, decode clientStandardDiscoverOfferRequest m = .ok (cid, nonce, ttl, ds, ch, v) → ttl < E.now →
      standardOffer E c m = (c, [])) ∧
    (∀ cid nonce ttl num inc ch v, decode clientDHTDiscoverRequest m = .ok (cid, nonce, ttl, num, inc, ch, v) → ttl < E.now → dht E c m = (c, [])) ∧
    (∀ cid nonce ttl num inc ch v, decode clientDHTDiscoverRequestV2 m = .ok (cid, nonce, ttl, num, inc, ch, v) → ttl < E.now → dhtV2 E c m = (c, [])) := by
  refine ⟨?_, ?_, ?_, ?_, ?_, ?_⟩
  · intro client challenge ttl h ht
    unfold establishment
    rw [h]
    dsimp only
    rw [if_pos ht]
  · intro cid nonce ttl ch v h ht
    unfold standard
    rw [h]
    dsimp only
    rw [if_pos ht]
  · intro cid nonce ttl ch v h ht
    unfold standardV2
    rw [h]
    dsimp only
    rw [if_pos ht]
  · intro cid nonce ttl ds ch v h ht
    unfold standardOffer
    rw [h]
    dsimp only
    rw [if_pos ht]
  · intro cid nonce ttl num inc ch v h ht
    unfold dht
    rw [h]
    dsimp only
    rw [if_pos ht]
  · intro cid nonce ttl num inc ch v h ht
    unfold dhtV2
    rw [h]
    dsimp only
    rw [if_pos ht]

/-- A request that arrives late. -/
example : ∃ m, (decode clientStandardDiscoverRequestV2 m = .ok (some (exId 2), 7, 999, ['c'], ['5'])) ∧ (999 : Int) < exEnv.now := by
  obtain ⟨m, hd⟩ := exDecodes (C30_clientStandardDiscoverRequestV2 exEnv.pr defaultProtocolOk (some (exId 2)) 7 999 ['c'] ['5']
    (exIdOk 2) ⟨by decide, by decide⟩ ⟨by decide, by decide⟩)
  exact ⟨m, hd, by decide⟩

/-- Against C51: the offers are given to whoever asks on the gateways' port; the request names no sender, and it is answered with
any signature, none included. -/
theorem C51_peerDhtOffer_refuted (E : Env Sig) (hpr : ProtocolOk E.pr) (c : Core Sig) (hk : CanSign E c) (m : Msg) (sig : List Char) (id : Id)
    (nonce : Int) (ds : List (List Char)) (channel voucher : List Char)
    (hreq : decode gatewayDHTDiscoverOfferRequest m = .ok (some id, nonce, ds, channel, voucher))
    (amount : Int) (hpay : Credits E c channel voucher amount) (offers : List CidOffer)
    (hoff : ds.map (fun d => SqlOffer.getByDigest E.H E.order E.off E.now c.db (readDigest E d)) = offers.map (fun o => .ok (some o)))
    (hr : ∀ x ∈ offers.map (fun o => Offer.subOffer E.H o id), Offer.SubInRange x) (hne : ds ≠ []) :
    ∃ m', (peerDhtOffer E c { m with signature := sig }).2 = [.message m'] ∧ Discloses m' := by
  obtain ⟨m', s, ch, h1, h2, -⟩ := C49_peerDhtOffer_refuted E hpr c hk { m with signature := sig } id nonce ds channel voucher hreq amount hpay
    offers hoff hr hne
  exact ⟨m', h1, h2⟩

/-! ## C50 -/

theorem payPeer_frame {E : Env Sig} {c c' : Core Sig} {r : Payment.Addr} {a : Int} {o : Except Nat (Payment.Addr × Payment.Voucher Sig)}
    (h : payPeer E c r a = (c', o)) : ∃ p, c' = { c with payment := p } := by
  unfold payPeer at h
  split at h
  · cases h; exact ⟨_, rfl⟩
  · cases h; exact ⟨_, rfl⟩
  · split at h <;> (cases h; exact ⟨_, rfl⟩)

theorem payPeerOffer_frame {E : Env Sig} {c c' : Core Sig} {r : Payment.Addr} {a : Int} {o : Except Nat (Option (Payment.Addr × Payment.Voucher Sig))}
    (h : payPeerOffer E c r a = (c', o)) : ∃ p, c' = { c with payment := p } := by
  unfold payPeerOffer at h
  split at h
  · cases h; exact ⟨_, rfl⟩
  · cases h; exact ⟨_, rfl⟩
  · split at h
    · cases h; exact ⟨_, rfl⟩
    · split at h <;> (cases h; exact ⟨_, rfl⟩)

theorem dhtV2Loop_frame (E : Env Sig) (cid : Id) : ∀ (rs : List Record) (c : Core Sig) (k : Contacts),
    ∃ p, (dhtV2Loop E cid c rs k).1 = { c with payment := p }
  | [], c, k => ⟨c.payment, rfl⟩
  | r :: rs, c, k => by
    unfold dhtV2Loop
    split
    · exact ⟨c.payment, rfl⟩
    · split
      · rename_i h; exact payPeer_frame h
      · rename_i h
        obtain ⟨p, rfl⟩ := payPeer_frame h
        split
        · exact ⟨p, rfl⟩
        · exact dhtV2Loop_frame E cid rs _ _

theorem dhtOfferLoop_frame (E : Env Sig) (cid : Option Id) (nonce : Int) : ∀ (ids : List Id) (dss : List (List (List Char))) (c : Core Sig) (k : Contacts),
    ∃ p, (dhtOfferLoop E cid nonce c ids dss k).1 = { c with payment := p }
  | [], _, c, k => ⟨c.payment, by simp [dhtOfferLoop]⟩
  | _ :: _, [], c, k => ⟨c.payment, by simp [dhtOfferLoop]⟩
  | id :: ids, ds :: dss, c, k => by
    unfold dhtOfferLoop
    split
    · exact ⟨c.payment, rfl⟩
    · split
      · rename_i h; exact payPeerOffer_frame h
      · rename_i h
        obtain ⟨p, rfl⟩ := payPeerOffer_frame h
        dsimp only
        split
        · exact ⟨p, rfl⟩
        · exact dhtOfferLoop_frame E cid nonce ids dss _ _

/-- What a request leaves alone: identity, key and the prices, but for the price of an offer and `peerDhtOffer`. -/
theorem serve_frame (E : Env Sig) (c : Core Sig) (k : Kind) (m : Msg) :
    (serve E c k m).1.id = c.id ∧ (serve E c k m).1.key = c.key ∧ (serve E c k m).1.keyVersion = c.keyVersion ∧
    (serve E c k m).1.searchPrice = c.searchPrice ∧ (serve E c k m).1.topupAmount = c.topupAmount ∧
    (k ≠ .peerDhtOffer → (serve E c k m).1.offerPrice = c.offerPrice) ∧
    (k ≠ .publishDht → k ≠ .publishGroup → (serve E c k m).1.db = c.db) := by
  have triv : ∀ c' : Core Sig, (∃ p, c' = { c with payment := p }) → c'.id = c.id ∧ c'.key = c.key ∧ c'.keyVersion = c.keyVersion ∧
      c'.searchPrice = c.searchPrice ∧ c'.topupAmount = c.topupAmount ∧ (k ≠ .peerDhtOffer → c'.offerPrice = c.offerPrice) ∧
      (k ≠ .publishDht → k ≠ .publishGroup → c'.db = c.db) := by
    rintro c' ⟨p, rfl⟩
    exact ⟨rfl, rfl, rfl, rfl, rfl, fun _ => rfl, fun _ _ => rfl⟩
  have same : ∃ p, c = { c with payment := p } := ⟨c.payment, rfl⟩
  cases k with
  | establishment =>
    apply triv
    simp only [serve]
    unfold establishment
    split
    · exact same
    · exact same
    · exact same
    · split <;> exact same
  | standard =>
    apply triv
    simp only [serve]
    unfold standard
    split
    · exact same
    · exact same
    · split
      · exact same
      · split
        · exact same
        · split <;> exact same
  | standardV2 =>
    apply triv
    simp only [serve]
    unfold standardV2
    split
    · exact same
    · exact same
    · split
      · exact same
      · split
        · exact same
        · split
          · dsimp only
            split <;> rename_i hr <;> obtain ⟨inb, rfl⟩ := receive_frame hr
            · exact ⟨_, rfl⟩
            · exact ⟨_, rfl⟩
            · split
              · split <;> exact ⟨_, rfl⟩
              · exact ⟨_, rfl⟩
          · exact same
  | standardOffer =>
    apply triv
    simp only [serve]
    unfold standardOffer
    split
    · exact same
    · exact same
    · split
      · exact same
      · dsimp only
        split <;> rename_i hr <;> obtain ⟨inb, rfl⟩ := receive_frame hr
        · exact ⟨_, rfl⟩
        · exact ⟨_, rfl⟩
        · split
          · split <;> exact ⟨_, rfl⟩
          · exact ⟨_, rfl⟩
  | dht =>
    apply triv
    simp only [serve]
    unfold dht
    split
    · exact same
    · exact same
    · split
      · exact same
      · split
        · exact same
        · split
          · exact same
          · split
            · exact same
            · split <;> exact same
  | dhtV2 =>
    apply triv
    simp only [serve]
    unfold dhtV2
    split
    · exact same
    · exact same
    · split
      · exact same
      · split
        · exact same
        · rename_i id _
          split
          · exact same
          · rename_i rs hrs
            split <;> rename_i hr <;> obtain ⟨inb, rfl⟩ := receive_frame hr
            · exact ⟨_, rfl⟩
            · exact ⟨_, rfl⟩
            · dsimp only
              obtain ⟨p, hp⟩ := dhtV2Loop_frame E id rs { c with payment := { c.payment with inbound := inb } } ⟨[], [], []⟩
              split <;> rename_i hl <;> rw [hl] at hp <;> exact ⟨p, hp⟩
  | dhtOffer =>
    apply triv
    simp only [serve]
    unfold dhtOffer
    split
    · exact same
    · exact same
    · rename_i cid nonce dss ids channel voucher hreq
      split <;> rename_i hr <;> obtain ⟨inb, rfl⟩ := receive_frame hr
      · exact ⟨_, rfl⟩
      · exact ⟨_, rfl⟩
      · dsimp only
        obtain ⟨p, hp⟩ := dhtOfferLoop_frame E cid nonce ids dss { c with payment := { c.payment with inbound := inb } } ⟨[], [], []⟩
        split <;> rename_i hl <;> rw [hl] at hp <;> exact ⟨p, hp⟩
  | peerDht =>
    apply triv
    simp only [serve]
    unfold peerDht
    split
    · exact same
    · exact same
    · split
      · exact same
      · exact same
      · split
        · exact same
        · split
          · exact same
          · split <;> exact same
  | peerDhtV2 =>
    apply triv
    simp only [serve]
    unfold peerDhtV2
    split
    · exact same
    · exact same
    · split
      · exact same
      · exact same
      · split
        · exact same
        · split <;> rename_i hr <;> obtain ⟨inb, rfl⟩ := receive_frame hr
          · exact ⟨_, rfl⟩
          · exact ⟨_, rfl⟩
          · split
            · exact ⟨_, rfl⟩
            · split
              · split
                · split <;> exact ⟨_, rfl⟩
                · exact ⟨_, rfl⟩
              · exact ⟨_, rfl⟩
  | peerDhtOffer =>
    have h : ∃ p q, (serve E c .peerDhtOffer m).1 = { c with payment := p, offerPrice := q } := by
      simp only [serve]
      unfold peerDhtOffer
      split
      · exact ⟨c.payment, c.offerPrice, rfl⟩
      · exact ⟨c.payment, c.offerPrice, rfl⟩
      · split <;> rename_i hr <;> obtain ⟨inb, rfl⟩ := receive_frame hr
        · exact ⟨_, c.offerPrice, rfl⟩
        · exact ⟨_, c.offerPrice, rfl⟩
        · dsimp only
          split
          · split <;> exact ⟨_, _, rfl⟩
          · exact ⟨_, _, rfl⟩
    obtain ⟨p, q, h⟩ := h
    rw [h]
    exact ⟨rfl, rfl, rfl, rfl, rfl, fun h => absurd rfl h, fun _ _ => rfl⟩
  | publishDht =>
    have h : ∃ d, (serve E c .publishDht m).1 = { c with db := d } := by
      simp only [serve]
      unfold publishDht
      split
      · exact ⟨c.db, rfl⟩
      · exact ⟨c.db, rfl⟩
      · split
        · exact ⟨c.db, rfl⟩
        · exact ⟨c.db, rfl⟩
        · split
          · exact ⟨_, rfl⟩
          · exact ⟨_, rfl⟩
          · split <;> exact ⟨_, rfl⟩
    obtain ⟨d, h⟩ := h
    rw [h]
    exact ⟨rfl, rfl, rfl, rfl, rfl, fun _ => rfl, fun h => absurd rfl h⟩
  | publishGroup =>
    have h : ∃ d, (serve E c .publishGroup m).1 = { c with db := d } := by
      simp only [serve]
      unfold publishGroup
      split
      · split
        · exact ⟨c.db, rfl⟩
        · exact ⟨c.db, rfl⟩
        · split
          · exact ⟨c.db, rfl⟩
          · exact ⟨c.db, rfl⟩
          · split
            · exact ⟨_, rfl⟩
            · split <;> exact ⟨_, rfl⟩
            · exact ⟨c.db, rfl⟩
      · exact ⟨c.db, rfl⟩
      · exact ⟨c.db, rfl⟩
    obtain ⟨d, h⟩ := h
    rw [h]
    exact ⟨rfl, rfl, rfl, rfl, rfl, fun _ => rfl, fun _ h => absurd rfl h⟩

/-- The price of a search, and who the gateway is, are what they were configured to be, after every history. -/
theorem C50_search_price (c : Core Sig) (h : List (Env Sig × Kind × Msg)) :
    (serveAll c h).searchPrice = c.searchPrice ∧ (serveAll c h).topupAmount = c.topupAmount ∧ (serveAll c h).id = c.id ∧
      (serveAll c h).key = c.key := by
  induction h generalizing c with
  | nil => exact ⟨rfl, rfl, rfl, rfl⟩
  | cons e h ih =>
    obtain ⟨E, k, m⟩ := e
    obtain ⟨h1, h2, -, h3, h4, -, -⟩ := serve_frame E c k m
    obtain ⟨i1, i2, i3, i4⟩ := ih (serve E c k m).1
    simp only [serveAll]
    exact ⟨i1.trans h3, i2.trans h4, i3.trans h1, i4.trans h2⟩

/-- The price of an offer stays what it was configured to be in every history without offer requests from other gateways. -/
theorem C50_offer_price_partial (c : Core Sig) (h : List (Env Sig × Kind × Msg)) (hno : ∀ e ∈ h, e.2.1 ≠ .peerDhtOffer) :
    (serveAll c h).offerPrice = c.offerPrice := by
  induction h generalizing c with
  | nil => rfl
  | cons e h ih =>
    obtain ⟨E, k, m⟩ := e
    simp only [serveAll]
    rw [ih _ (fun e he => hno e (by simp [he]))]
    exact (serve_frame E c k m).2.2.2.2.2.1 (hno (E, k, m) (by simp))

/-- Exactly when the price of an offer changes, and to what: every offer request of another gateway whose voucher is accepted
multiplies it by the number of offers asked for. -/
theorem C50_offer_price_step (E : Env Sig) (c : Core Sig) (m : Msg) :
    (serve E c .peerDhtOffer m).1.offerPrice =
      match decode gatewayDHTDiscoverOfferRequest m with
      | .ok (_, _, ds, channel, voucher) =>
        match (Payment.receive E.verifyVoucher c.payment (String.ofList channel) (E.readVoucher voucher) (E.chain (String.ofList channel))).2 with
        | .credited _ => c.offerPrice * ds.length
        | _ => c.offerPrice
      | _ => c.offerPrice := by
  simp only [serve]
  unfold peerDhtOffer
  split
  · rename_i hreq; rw [hreq]
  · rename_i hreq; rw [hreq]
  · rename_i cid nonce ds channel voucher hreq
    rw [hreq]
    split <;> rename_i hr <;> (have hs := receive_snd hr; obtain ⟨inb, rfl⟩ := receive_frame hr; dsimp only; rw [hs])
    dsimp only
    split
    · split <;> rfl
    · rfl

/-- Against C50: a request for `n` offers multiplies the price for everyone who asks later, whatever it pays. -/
theorem C50_refuted (E : Env Sig) (c : Core Sig) (m : Msg) (cid : Option Id) (nonce : Int) (ds : List (List Char)) (channel voucher : List Char)
    (hreq : decode gatewayDHTDiscoverOfferRequest m = .ok (cid, nonce, ds, channel, voucher)) (amount : Int)
    (hpay : Credits E c channel voucher amount) : (serve E c .peerDhtOffer m).1.offerPrice = c.offerPrice * ds.length := by
  have := C50_offer_price_step E c m
  rw [hreq] at this
  dsimp only at this
  rw [hpay] at this
  exact this

/-- In particular a request for no offers at all, with a voucher over any amount, makes every later offer free: for every history
after it the price is 0, and everyone whose voucher is accepted has paid the price of as many offers as they like. -/
theorem C50_free_refuted (E : Env Sig) (c : Core Sig) (m : Msg) (cid : Option Id) (nonce : Int) (channel voucher : List Char)
    (hreq : decode gatewayDHTDiscoverOfferRequest m = .ok (cid, nonce, [], channel, voucher)) (amount : Int)
    (hpay : Credits E c channel voucher amount) (h : List (Env Sig × Kind × Msg)) :
    let c' := serveAll (serve E c .peerDhtOffer m).1 h
    c'.offerPrice = 0 ∧ ∀ (E' : Env Sig) (n : Nat) ch v a, Credits E' c' ch v a → 0 ≤ a → Pays E' c' ch v (c'.offerPrice * n) := by
  have h0 : (serve E c .peerDhtOffer m).1.offerPrice = 0 := by
    rw [C50_refuted E c m cid nonce [] channel voucher hreq amount hpay]
    simp
  have hz : ∀ (h : List (Env Sig × Kind × Msg)) (c : Core Sig), c.offerPrice = 0 → (serveAll c h).offerPrice = 0 := by
    intro h
    induction h with
    | nil => intro c hc; exact hc
    | cons e h ih =>
      intro c hc
      obtain ⟨E, k, m⟩ := e
      simp only [serveAll]
      apply ih
      by_cases hk : k = .peerDhtOffer
      · subst hk
        rw [C50_offer_price_step, hc]
        split
        · split <;> simp
        · rfl
      · rw [(serve_frame E c k m).2.2.2.2.2.1 hk, hc]
  dsimp only
  refine ⟨hz h _ h0, ?_⟩
  intro E' n ch v a hc ha
  refine ⟨a, hc, ?_⟩
  rw [hz h _ h0]
  simpa using ha

/-- The hypotheses can be met. -/
example : ∃ m, (serve exEnv exCore .peerDhtOffer m).1.offerPrice = 0 ∧ exCore.offerPrice = 2 := by
  obtain ⟨m, hd⟩ := exDecodes (C30_gatewayDHTDiscoverOfferRequest exEnv.pr defaultProtocolOk (some (exId 2)) 7 [] ['c'] ['1']
    (exIdOk 2) ⟨by decide, by decide⟩)
  exact ⟨m, (C50_free_refuted exEnv exCore m _ 7 ['c'] ['1'] hd 1 exCore_credits1 []).1, rfl⟩

end FcRetrieval.Gateway
