import Verif.Props.ClientReturn
/-!
# C58, C59, C60: what discovery returns, asks and pays for
-/
set_option linter.unusedSimpArgs false

namespace FcRetrieval.Client
open FcRetrieval.Ids (Id)
open FcRetrieval.Merkle (exId)
open FcRetrieval.Message (Msg)
open FcRetrieval.Offer (SubOffer)
open FcRetrieval.Payment (Addr Voucher)
open FcRetrieval.Register (Record)
open FcRetrieval.Wire (Codec encode decode)
open FcRetrieval.Codecs
open FcRetrieval.Gateway (res_ok_of_bind)
open FcRetrieval.Provider (exMsg exMsg_decode exMsg_signed)

variable {Sig : Type}

attribute [local irreducible] Provider.exMsg

/-- A gateway that sends two offers whatever it is asked. -/
def exStandard2 : Env Unit := exAnswering clientStandardDiscoverOfferResponse (some (exId 2), 9, true, [exGood, exGood], [], false, [])

/-! ## C58: only verified offers -/

/-- **C58** is false of `FindOffersStandardDiscovery`: it checks the offers and then returns all that were received.  Whatever offers of
providers that are not registered the gateway sends, they are returned. -/
theorem C58_standard_refuted (E : Env Sig) (c : Client Sig) (cid gw : Id) (r : Record) (hr : ActiveRecord c gw r) (m a : Msg)
    (hm : encode clientStandardDiscoverRequest E.pr (some cid, E.nonce 0, E.now + c.settings.ttl, [], []) = .ok m) (ha : Answered E 0 r m a)
    (found : Bool) (offers : List SubOffer) (funded : List Bool)
    (hd : decode clientStandardDiscoverResponse a = .ok (some cid, E.nonce 0, found, offers, funded))
    (hp : ∀ o ∈ offers, ∃ pid, o.providerID = some pid ∧ E.provider pid = none) :
    findStandard E c cid gw = ([.asked r.netClient m], .ok offers) ∧ ∀ o ∈ offers, ¬ Genuine E o := by
  constructor
  · unfold findStandard
    rw [show mget c.active (Ids.toStr gw) = some r from hr]
    dsimp only
    have hreq : requestStandard E 0 r cid (E.nonce 0) (E.now + c.settings.ttl) [] [] = ([.asked r.netClient m], .ok offers) := by
      unfold requestStandard
      dsimp only
      rw [hm, ask_answered ha]
      simp only [Res.bind_ok, hd, deref, ne_eq, not_true_eq_false, if_false]
    rw [hreq]
    obtain ⟨l, hl⟩ := checkOffers_panic (E := E) (os := offers) (by
      intro o ho
      obtain ⟨pid, h1, h2⟩ := hp o ho
      unfold checkOffer checkedKey
      rw [h1]
      simp [deref, h2])
    simp only [Res.bind_ok, hl]
    rfl
  · rintro o ho ⟨pid, r', k, raw, h1, h2, -⟩
    obtain ⟨pid', h3, h4⟩ := hp o ho
    rw [h1] at h3
    cases h3
    rw [h2] at h4
    cases h4

example : ∃ E : Env Unit, (findStandard E exClient (exId 2) (exId 1)).2 = .ok [exBad] ∧ ¬ Genuine E exBad := by
  have hdel := C30_clientStandardDiscoverResponse Message.defaultProtocol defaultProtocolOk (some (exId 2)) 7 true [exBad] [false] (exIdOk 2)
    ⟨by decide, by decide⟩ (exOffers exGood_inRange exBad_inRange (by simp))
  obtain ⟨m, hm, -⟩ := C30_clientStandardDiscoverRequest Message.defaultProtocol defaultProtocolOk (some (exId 2)) 7 1100 [] [] (exIdOk 2)
    ⟨by decide, by decide⟩ ⟨by decide, by decide⟩
  have := C58_standard_refuted (exAnswering clientStandardDiscoverResponse (some (exId 2), 7, true, [exBad], [false])) exClient (exId 2) (exId 1) exRecord
    exClient_active m _ hm (exAnswering_answered hdel 0 m) true [exBad] [false] (exMsg_decode hdel)
    (by
      intro o ho
      rw [List.mem_singleton] at ho
      rw [ho]
      exact ⟨exId 8, exBad_unknown⟩)
  exact ⟨_, by rw [this.1], this.2 _ (by simp)⟩

/-- **C58**, partial: what `FindOffersDHTDiscovery` returns for a gateway is genuine, and comes from an answer which is signed with the
registered key of this gateway; of the offers in that answer, exactly those which verify are returned. -/
theorem C58_dht_partial (E : Env Sig) (c : Client Sig) (cid gw : Id) (num : Int) (res : List (List Char × List SubOffer))
    (h : (findDht E c cid gw num).2 = .ok res) (k : List Char) (offers : List SubOffer) (hk : mget res k = some offers) :
    (∀ o ∈ offers, Genuine E o) ∧ ∃ id r answer c' nonce fnd all funded, k = Ids.toStr id ∧ E.gateway id = some r ∧ CompleteGateway r ∧
      SignedBy E r answer ∧ decode gatewayDHTDiscoverResponse answer = .ok (c', nonce, fnd, all, funded) ∧ offers.Sublist all ∧
      ∀ o ∈ all, Genuine E o → (∀ pid p, o.providerID = some pid → E.provider pid = some p → CompleteProvider p) → o ∈ offers := by
  unfold findDht at h
  split at h
  · cases h
  · dsimp only at h
    obtain ⟨l, -, h⟩ := res_ok_of_bind h
    rcases dhtAnswers_ok h k offers hk with h1 | ⟨id, m, r, c', nonce, fnd, all, funded, h1, -, h3, h4, h5, h6, h7, h8⟩
    · cases h1
    · refine ⟨fun o ho => (checkOffer_ok.1 ((h8 o (h7.subset ho)).1 ho)).1, id, r, m, c', nonce, fnd, all, funded, h1, h3, h4, h5, h6, h7, ?_⟩
      intro o ho hg hc
      refine (h8 o ho).2 (checkOffer_ok.2 ⟨hg, ?_⟩)
      obtain ⟨pid, p, -, -, g1, g2, -⟩ := hg
      exact ⟨pid, p, g1, g2, hc pid p g1 g2⟩

example : Genuine exDht exGood := by
  obtain ⟨res, h1, h2⟩ := exDht_returns
  exact (C58_dht_partial exDht exClient (exId 2) (exId 1) 4 res h1 _ _ h2).1 _ (by simp)

/-- **C58**, partial: what `FindOffersStandardDiscoveryV2` returns is genuine. -/
theorem C58_standardV2_partial (E : Env Sig) (c : Client Sig) (cid gw : Id) (max : Int) (res : List SubOffer)
    (h : (findStandardV2 E c cid gw max).2.2 = .ok res) : ∀ o ∈ res, Genuine E o := by
  unfold findStandardV2 at h
  split at h
  · cases h
  · split at h
    · cases h
    · cases h
    · split at h
      · cases h
      · cases h
      · split at h
        · cases h
          intro o ho
          cases ho
        · split at h
          · dsimp only at h
            obtain ⟨-, -, -, h4⟩ := fetchStandardV2_seen (Prod.eta _).symm
            intro o ho
            exact (checkOffer_ok.1 ((h4 res h).1 o ho)).1
          · cases h

example : ∀ o ∈ [exGood, exGood], Genuine exStandard o := C58_standardV2_partial exStandard exClient (exId 2) (exId 1) 2 _ exStandard_returns.1

/-- **C58** is false of `FindOffersDHTDiscoveryV2`: the offers are not verified at all.  When it has paid for them, whatever offers the
gateway names in its answer are returned, and nobody has to have signed them. -/
theorem C58_dhtV2_refuted (E : Env Sig) (c c' : Client Sig) (r : Record) (cid : Id) (ids : List Id) (dss : List (List (List Char)))
    (out : List (Out Sig)) (ch : Addr) (v : Voucher Sig)
    (hpay : payFor E (paymentMgr E c) 2 (String.ofList r.address) (((dss.map List.length).sum : Nat) * c.settings.offerPrice) = (c', out, .ok (ch, v)))
    (m a : Msg) (hm : encode clientDHTDiscoverOfferRequest E.pr (some cid, E.nonce 0, dss, ids, ch.toList, E.showVoucher v) = .ok m)
    (ha : Answered E 2 r m a) (cid' : Option Id) (nonce' : Int) (id : Id) (answer : Msg) (ch' : List Char)
    (hd : decode clientDHTDiscoverOfferResponse a = .ok (cid', nonce', [id], [answer], false, ch'))
    (cid'' : Option Id) (nonce'' : Int) (offers : List SubOffer) (hne : offers ≠ []) (funded : List Bool) (ch'' : List Char)
    (ho : decode gatewayDHTDiscoverOfferResponse answer = .ok (cid'', nonce'', true, offers, funded, false, ch'')) :
    (fetchDhtV2 E c r cid ids dss).2.2 = .ok [(Ids.toStr id, offers)] := by
  unfold fetchDhtV2
  rw [hpay]
  dsimp only
  have hreq : requestDhtOffer E 2 r ids cid (E.nonce 0) dss ch.toList (E.showVoucher v) = ([.asked r.netClient m], .ok [(id, offers)]) := by
    unfold requestDhtOffer
    dsimp only
    rw [hm, ask_answered ha]
    have : 0 < offers.length := List.length_pos_iff.2 hne
    simp only [Res.bind_ok, hd, List.length_cons, List.length_nil, ne_eq, not_true_eq_false, if_false, List.zip_cons_cons, List.zip_nil_right, Bool.false_eq_true]
    simp [gatherOffers, ho, this]
  rw [hreq]
  simp [offersMap, mset]

/-- So it can return an offer that is not genuine. -/
theorem C58_dhtV2_witness : ∃ (E : Env Unit) (c : Client Unit) (cid gw : Id) (res : List (List Char × List SubOffer)),
    (findDhtV2 E c cid gw 1 3).2.2 = .ok res ∧ ∃ e ∈ res, ∃ o ∈ e.2, ¬ Genuine E o := by
  obtain ⟨res, h, h', -⟩ := exDhtV2_returns.1
  refine ⟨exDhtV2, exClient, exId 2, exId 1, res, h, _, mget_some_mem h', exBad, by simp, ?_⟩
  rintro ⟨pid, r, k, raw, h1, h2, -⟩
  rw [exBad_unknown.1] at h1
  cases h1
  have : exDhtV2.provider (exId 8) = none := exBad_unknown.2
  rw [this] at h2
  cases h2

/-! ## C59: the limit on the number of offers -/

/-- **C59**, partial: with a limit that is not negative, `FindOffersStandardDiscoveryV2` pays, besides the search, for at most `max` offers,
asks for at most `max` offers, and only for as many as it pays for; with a limit of at least one it returns at most `max` offers. -/
theorem C59_standard_partial (E : Env Sig) (c : Client Sig) (cid gw : Id) (max : Int) (hmax : 0 ≤ max) (r : Record) (hr : ActiveRecord c gw r) :
    (∃ i ≤ 2, ∃ last, payments (findStandardV2 E c cid gw max).2.1 = List.replicate i (String.ofList r.address, c.settings.searchPrice) ++ last ∧
      (last = [] ∨ ∃ k : Nat, (k : Int) ≤ max ∧ last = [(String.ofList r.address, k * c.settings.offerPrice)])) ∧
    (∀ x ∈ asked (findStandardV2 E c cid gw max).2.1, x.1 = r.netClient ∧ (x.2.type = (clientStandardDiscoverRequestV2).code ∨
      ∃ nonce ttl ds ch v, encode clientStandardDiscoverOfferRequest E.pr (some cid, nonce, ttl, ds, ch, v) = .ok x.2 ∧ (ds.length : Int) ≤ max ∧
        (String.ofList r.address, (ds.length : Int) * c.settings.offerPrice) ∈ payments (findStandardV2 E c cid gw max).2.1)) ∧
    (1 ≤ max → ∀ res, (findStandardV2 E c cid gw max).2.2 = .ok res → (res.length : Int) ≤ max) := by
  unfold findStandardV2
  rw [show mget c.active (Ids.toStr gw) = some r from hr]
  dsimp only
  split
  · rename_i ht
    obtain ⟨-, rfl⟩ := payFor_none ht (fun x => by simp)
    exact ⟨⟨0, by omega, [], rfl, Or.inl rfl⟩, fun x hx => (by cases hx), fun _ res h => by cases h⟩
  · rename_i ht
    obtain ⟨-, rfl⟩ := payFor_none ht (fun x => by simp)
    exact ⟨⟨0, by omega, [], rfl, Or.inl rfl⟩, fun x hx => (by cases hx), fun _ res h => by cases h⟩
  · rename_i c1 out ch v ht
    obtain ⟨hf1, rfl⟩ := payFor_ok ht
    have base {c2 : Client Sig} {out1 : List (Out Sig)} {res : Res (List (List Char))} (hs : searchStandardV2 E c1 r cid ch v = (c2, out1, res)) :
        Frame c1 c2 ∧ (∃ i ≤ 2, payments ([.paid (String.ofList r.address) c.settings.searchPrice v] ++ out1) = List.replicate i (String.ofList r.address, c.settings.searchPrice)) ∧
        ∀ x ∈ asked ([.paid (String.ofList r.address) c.settings.searchPrice v] ++ out1), x.1 = r.netClient ∧ x.2.type = (clientStandardDiscoverRequestV2).code := by
      obtain ⟨h1, h2, h3⟩ := searchStandardV2_seen hs
      refine ⟨h1, ?_, fun x hx => ?_⟩
      · rw [payments_append]
        rcases h2 with h2 | h2
        · exact ⟨1, by omega, by rw [h2]; rfl⟩
        · exact ⟨2, by omega, by rw [h2, hf1.1]; rfl⟩
      · rw [asked_append, List.mem_append] at hx
        rcases hx with hx | hx
        · cases hx
        · exact h3 x hx
    split
    · rename_i hs
      obtain ⟨-, ⟨i, hi, h2⟩, h3⟩ := base hs
      exact ⟨⟨i, hi, [], by rw [h2]; simp, Or.inl rfl⟩, fun x hx => ⟨(h3 x hx).1, Or.inl (h3 x hx).2⟩, fun _ res h => by cases h⟩
    · rename_i hs
      obtain ⟨-, ⟨i, hi, h2⟩, h3⟩ := base hs
      exact ⟨⟨i, hi, [], by rw [h2]; simp, Or.inl rfl⟩, fun x hx => ⟨(h3 x hx).1, Or.inl (h3 x hx).2⟩, fun _ res h => by cases h⟩
    · rename_i c2 out1 digests hs
      obtain ⟨hf2, ⟨i, hi, h2⟩, h3⟩ := base hs
      split
      · refine ⟨⟨i, hi, [], by rw [h2]; simp, Or.inl rfl⟩, fun x hx => ⟨(h3 x hx).1, Or.inl (h3 x hx).2⟩, fun h1 res h => ?_⟩
        cases h
        simp
        omega
      · split
        · rename_i ds hds
          have hlen : (ds.length : Int) ≤ max := by
            split at hds
            · exact (upTo_ok hds).2.2
            · cases hds
              omega
          rcases hf : fetchStandardV2 E c2 r cid ds max with ⟨c3, out3, res3⟩
          obtain ⟨-, g2, g3, g4⟩ := fetchStandardV2_seen hf
          have hset : c2.settings.offerPrice = c.settings.offerPrice := by rw [hf2.1, hf1.1]
          rw [hset] at g2 g3
          dsimp only
          refine ⟨⟨i, hi, _, by rw [payments_append, h2], ?_⟩, fun x hx => ?_, fun h1 res h => (g4 res h).2 h1⟩
          · rcases g2 with g2 | g2
            · exact Or.inl g2
            · exact Or.inr ⟨ds.length, hlen, g2⟩
          · rw [asked_append, List.mem_append] at hx
            rcases hx with hx | hx
            · exact ⟨(h3 x hx).1, Or.inl (h3 x hx).2⟩
            · obtain ⟨a1, a2, nonce, ttl, ch', v', a3⟩ := g3 x hx
              refine ⟨a1, Or.inr ⟨nonce, ttl, ds, ch', v', a3, hlen, ?_⟩⟩
              rw [payments_append, a2]
              simp
        · exact ⟨⟨i, hi, [], by rw [h2]; simp, Or.inl rfl⟩, fun x hx => ⟨(h3 x hx).1, Or.inl (h3 x hx).2⟩, fun _ res h => by cases h⟩

/-- The hypotheses are met where the payments are these. -/
example : ∃ i last, [("p", 3), ("p", 4)] = List.replicate i ("p", (3 : Int)) ++ last ∧ ∃ k : Nat, (k : Int) ≤ 2 ∧ last = [("p", k * (2 : Int))] :=
  ⟨1, _, rfl, 2, by decide, rfl⟩

example : (([exGood, exGood] : List SubOffer).length : Int) ≤ 2 :=
  (C59_standard_partial exStandard exClient (exId 2) (exId 1) 2 (by decide) exRecord exClient_active).2.2 (by decide) _ exStandard_returns.1

/-- **C59** is false for a limit of zero: however many offers the gateway sends, those that verify are all returned. -/
theorem C59_zero_refuted (E : Env Sig) (c c' : Client Sig) (r : Record) (cid : Id) (ds : List (List Char)) (out : List (Out Sig)) (ch : Addr) (v : Voucher Sig)
    (hpay : payFor E c 2 (String.ofList r.address) (ds.length * c.settings.offerPrice) = (c', out, .ok (ch, v)))
    (m a : Msg) (hm : encode clientStandardDiscoverOfferRequest E.pr (some cid, E.nonce 2, E.now + c'.settings.ttl, ds, ch.toList, E.showVoucher v) = .ok m)
    (ha : Answered E 2 r m a) (found : Bool) (offers : List SubOffer) (funded : List Bool) (ch' : List Char)
    (hd : decode clientStandardDiscoverOfferResponse a = .ok (some cid, E.nonce 2, found, offers, funded, false, ch'))
    (hv : ∀ o ∈ offers, checkOffer E o = .ok ()) : (fetchStandardV2 E c r cid ds 0).2.2 = .ok offers := by
  unfold fetchStandardV2
  rw [hpay]
  dsimp only
  have hreq : requestStandardOffer E 2 r cid (E.nonce 2) (E.now + c'.settings.ttl) ds ch.toList (E.showVoucher v) = ([.asked r.netClient m], .ok offers) := by
    unfold requestStandardOffer
    dsimp only
    rw [hm, ask_answered ha]
    simp only [Res.bind_ok, hd, deref, ne_eq, not_true_eq_false, if_false, Bool.false_eq_true]
  rw [hreq]
  exact takeValid_none (by omega) hv

/-- A request that names no digest, answered with two offers. -/
example : (fetchStandardV2 exStandard2 exClient exRecord (exId 2) [] 0).2.2 = .ok [exGood, exGood] := by
  obtain ⟨v, hv⟩ := exMgr_pay 0 (by decide)
  have hdel := C30_clientStandardDiscoverOfferResponse Message.defaultProtocol defaultProtocolOk (some (exId 2)) 9 true [exGood, exGood] [] false []
    (exIdOk 2) ⟨by decide, by decide⟩ (exOffers exGood_inRange exBad_inRange (by simp))
  obtain ⟨m, hm, -⟩ := C30_clientStandardDiscoverOfferRequest Message.defaultProtocol defaultProtocolOk (some (exId 2)) 9 1100 [] ['c'] ['5'] (exIdOk 2)
    ⟨by decide, by decide⟩ ⟨by decide, by decide⟩
  exact C59_zero_refuted exStandard2 exClient _ exRecord (exId 2) [] _ "c" v (payFor_funded rfl hv) m _ hm (exAnswering_answered hdel 2 m) true [exGood, exGood]
    [] [] (exMsg_decode hdel) (fun o ho => checkOffer_ok.2 (exOffers (P := fun o => o = exGood → Verified exStandard2 o) (fun _ => exGood_verified)
      (fun h => h ▸ exGood_verified) (l := [exGood, exGood]) (by simp) o ho (by simpa using ho)))

/-- **C59**, partial: with a limit that is not negative, `FindOffersDHTDiscoveryV2` pays, besides the search, for at most `limit` offers and
asks for at most `limit` offers, those it pays for. -/
theorem C59_dht_partial (E : Env Sig) (c : Client Sig) (cid gw : Id) (num limit : Int) (hlimit : 0 ≤ limit) (r : Record) (hr : ActiveRecord c gw r) :
    (∃ search last, payments (findDhtV2 E c cid gw num limit).2.1 = search ++ last ∧
      (search = [] ∨ search = [(String.ofList r.address, num * defaultSearchPrice)] ∨
        ∃ to, search = [(String.ofList r.address, num * defaultSearchPrice), (to, c.settings.searchPrice)]) ∧
      (last = [] ∨ ∃ k : Nat, (k : Int) ≤ limit ∧ last = [(String.ofList r.address, k * c.settings.offerPrice)])) ∧
    (∀ x ∈ asked (findDhtV2 E c cid gw num limit).2.1, x.1 = r.netClient ∧ (x.2.type = (clientDHTDiscoverRequestV2).code ∨
      ∃ nonce dss ids ch v, encode clientDHTDiscoverOfferRequest E.pr (some cid, nonce, dss, ids, ch, v) = .ok x.2 ∧
        (((dss.map List.length).sum : Nat) : Int) ≤ limit ∧
        (String.ofList r.address, (((dss.map List.length).sum : Nat) : Int) * c.settings.offerPrice) ∈ payments (findDhtV2 E c cid gw num limit).2.1)) := by
  unfold findDhtV2
  rw [show mget c.active (Ids.toStr gw) = some r from hr]
  dsimp only
  have hf0 := paymentMgr_frame E c
  split
  · rename_i ht
    obtain ⟨-, rfl⟩ := payFor_none ht (fun x => by simp)
    exact ⟨⟨[], [], rfl, Or.inl rfl, Or.inl rfl⟩, fun x hx => (by cases hx)⟩
  · rename_i ht
    obtain ⟨-, rfl⟩ := payFor_none ht (fun x => by simp)
    exact ⟨⟨[], [], rfl, Or.inl rfl, Or.inl rfl⟩, fun x hx => (by cases hx)⟩
  · rename_i c1 out ch v ht
    obtain ⟨hf1, rfl⟩ := payFor_ok ht
    have base {c2 : Client Sig} {out1 : List (Out Sig)} {res : Res (List (Id × Msg))} (hs : searchDhtV2 E c1 r cid num ch v = (c2, out1, res)) :
        Frame c1 c2 ∧ (∃ search, payments ([.paid (String.ofList r.address) (num * defaultSearchPrice) v] ++ out1) = search ∧
          (search = [] ∨ search = [(String.ofList r.address, num * defaultSearchPrice)] ∨
            ∃ to, search = [(String.ofList r.address, num * defaultSearchPrice), (to, c.settings.searchPrice)])) ∧
        ∀ x ∈ asked ([.paid (String.ofList r.address) (num * defaultSearchPrice) v] ++ out1), x.1 = r.netClient ∧ x.2.type = (clientDHTDiscoverRequestV2).code := by
      obtain ⟨h1, h2, h3⟩ := searchDhtV2_seen hs
      refine ⟨h1, ⟨_, rfl, ?_⟩, fun x hx => ?_⟩
      · rw [payments_append]
        rcases h2 with h2 | ⟨-, -, -, -, -, -, to, -, -, h2⟩
        · exact Or.inr (Or.inl (by rw [h2]; rfl))
        · exact Or.inr (Or.inr ⟨String.ofList to, by rw [h2, hf1.1, hf0.1]; rfl⟩)
      · rw [asked_append, List.mem_append] at hx
        rcases hx with hx | hx
        · cases hx
        · exact h3 x hx
    split
    · rename_i hs
      obtain ⟨-, ⟨se, h2, h4⟩, h3⟩ := base hs
      exact ⟨⟨se, [], by rw [h2]; simp, h4, Or.inl rfl⟩, fun x hx => ⟨(h3 x hx).1, Or.inl (h3 x hx).2⟩⟩
    · rename_i hs
      obtain ⟨-, ⟨se, h2, h4⟩, h3⟩ := base hs
      exact ⟨⟨se, [], by rw [h2]; simp, h4, Or.inl rfl⟩, fun x hx => ⟨(h3 x hx).1, Or.inl (h3 x hx).2⟩⟩
    · rename_i c2 out1 contacted hs
      obtain ⟨hf2, ⟨se, h2, h4⟩, h3⟩ := base hs
      split
      · exact ⟨⟨se, [], by rw [h2]; simp, h4, Or.inl rfl⟩, fun x hx => ⟨(h3 x hx).1, Or.inl (h3 x hx).2⟩⟩
      · exact ⟨⟨se, [], by rw [h2]; simp, h4, Or.inl rfl⟩, fun x hx => ⟨(h3 x hx).1, Or.inl (h3 x hx).2⟩⟩
      · exact ⟨⟨se, [], by rw [h2]; simp, h4, Or.inl rfl⟩, fun x hx => ⟨(h3 x hx).1, Or.inl (h3 x hx).2⟩⟩
      · rename_i dss hdss
        rcases hf : fetchDhtV2 E c2 r cid (contacted.map (·.1)) dss with ⟨c3, out3, res3⟩
        obtain ⟨-, g1, g0, -⟩ := fetchDhtV2_seen hf
        have hset : c2.settings.offerPrice = c.settings.offerPrice := by rw [hf2.1, hf1.1, hf0.1]
        rw [hset] at g1 g0
        rw [hf]
        have hlen := (collect_ok hdss).2.1 hlimit
        have hlen : (((dss.map List.length).sum : Nat) : Int) ≤ limit := by omega
        dsimp only
        refine ⟨⟨se, _, by rw [payments_append, h2], h4, ?_⟩, fun x hx => ?_⟩
        · rcases g1 with g1 | g1
          · exact Or.inl g1
          · exact Or.inr ⟨_, hlen, g1⟩
        · rw [asked_append, List.mem_append] at hx
          rcases hx with hx | hx
          · exact ⟨(h3 x hx).1, Or.inl (h3 x hx).2⟩
          · obtain ⟨a1, a2, nonce, ch', v', a3⟩ := g0 x hx
            refine ⟨a1, Or.inr ⟨nonce, dss, _, ch', v', a3, hlen, ?_⟩⟩
            rw [payments_append, a2]
            simp

example : ∃ search last, [("p", 1000000000000000), ("p", 4)] = search ++ last ∧ ∃ k : Nat, (k : Int) ≤ 3 ∧ last = [("p", k * (2 : Int))] :=
  ⟨[("p", 1000000000000000)], _, rfl, 2, by decide, rfl⟩

/-- **C59** is false of what `FindOffersDHTDiscoveryV2` returns: with a limit of three and one digest paid for, however many offers the
gateway sends are returned, since what is received is not counted (`C58_dhtV2_refuted` is for any number of offers). -/
theorem C59_dht_refuted (E : Env Sig) (c c' : Client Sig) (r : Record) (cid : Id) (ids : List Id) (dss : List (List (List Char)))
    (out : List (Out Sig)) (ch : Addr) (v : Voucher Sig)
    (hpay : payFor E (paymentMgr E c) 2 (String.ofList r.address) (((dss.map List.length).sum : Nat) * c.settings.offerPrice) = (c', out, .ok (ch, v)))
    (m a : Msg) (hm : encode clientDHTDiscoverOfferRequest E.pr (some cid, E.nonce 0, dss, ids, ch.toList, E.showVoucher v) = .ok m)
    (ha : Answered E 2 r m a) (cid' : Option Id) (nonce' : Int) (id : Id) (answer : Msg) (ch' : List Char)
    (hd : decode clientDHTDiscoverOfferResponse a = .ok (cid', nonce', [id], [answer], false, ch'))
    (cid'' : Option Id) (nonce'' : Int) (offers : List SubOffer) (funded : List Bool) (ch'' : List Char)
    (ho : decode gatewayDHTDiscoverOfferResponse answer = .ok (cid'', nonce'', true, offers, funded, false, ch''))
    (limit : Nat) (hmany : limit < offers.length) :
    ∃ res, (fetchDhtV2 E c r cid ids dss).2.2 = .ok res ∧ limit < (res.map (fun e => e.2.length)).sum :=
  ⟨_, C58_dhtV2_refuted E c c' r cid ids dss out ch v hpay m a hm ha cid' nonce' id answer ch' hd cid'' nonce'' offers
    (fun h => by rw [h] at hmany; simp at hmany) funded ch'' ho, by simpa using hmany⟩

/-! ## C60: the map of DHT discovery, second version -/

/-- What `FindOffersDHTDiscoveryV2` returns is the map made from the answers to the request for the offers, or empty. -/
theorem findDhtV2_map {E : Env Sig} {c : Client Sig} {cid gw : Id} {num limit : Int} {res : List (List Char × List SubOffer)}
    (h : (findDhtV2 E c cid gw num limit).2.2 = .ok res) : res = [] ∨ ∃ r m a cid' nonce' ids answers ch entries, ActiveRecord c gw r ∧ Answered E 2 r m a ∧
      decode clientDHTDiscoverOfferResponse a = .ok (cid', nonce', ids, answers, false, ch) ∧ ids.length = answers.length ∧
      gatherOffers (ids.zip answers) = .ok entries ∧ res = offersMap entries := by
  unfold findDhtV2 at h
  split at h
  · cases h
  · rename_i r hr
    split at h
    · cases h
    · cases h
    · split at h
      · cases h
      · cases h
      · split at h
        · cases h
        · cases h
        · cases h
          exact Or.inl rfl
        · rename_i c2 _ contacted _ _ dss _
          rcases hf : fetchDhtV2 E c2 r cid (contacted.map (·.1)) dss with ⟨c3, out3, res3⟩
          obtain ⟨-, -, -, p4⟩ := fetchDhtV2_seen hf
          dsimp only at h
          rw [hf] at h
          obtain ⟨m, a, cid', nonce', ids, answers, ch, entries, h1, h2, h3, h4, h5⟩ := p4 res h
          exact Or.inr ⟨r, m, a, cid', nonce', ids, answers, ch, entries, hr, h1, h2, h3, h4, h5⟩

/-- **C60** is false: every gateway in the map has the same offers. -/
theorem C60_refuted (E : Env Sig) (c : Client Sig) (cid gw : Id) (num limit : Int) (res : List (List Char × List SubOffer))
    (h : (findDhtV2 E c cid gw num limit).2.2 = .ok res) : ∀ e ∈ res, ∀ e' ∈ res, e.2 = e'.2 := by
  rcases findDhtV2_map h with rfl | ⟨r, m, a, cid', nonce', ids, answers, ch, entries, -, -, -, -, -, rfl⟩
  · intro e he
    cases he
  · intro e he e' he'
    rw [offersMap_same entries e he, offersMap_same entries e' he']

/-- So if two gateways return different offers, one of them is shown with the offers of the other. -/
theorem C60_wrong (E : Env Sig) (c : Client Sig) (cid gw : Id) (num limit : Int) (res : List (List Char × List SubOffer))
    (h : (findDhtV2 E c cid gw num limit).2.2 = .ok res) (returned : List Char → List SubOffer) (k k' : List Char) (hne : returned k ≠ returned k')
    (hk : k ∈ mkeys res) (hk' : k' ∈ mkeys res) : ∃ e ∈ res, e.2 ≠ returned e.1 := by
  obtain ⟨e, he, rfl⟩ := List.mem_map.1 hk
  obtain ⟨e', he', rfl⟩ := List.mem_map.1 hk'
  apply Classical.byContradiction
  intro hno
  have h1 : e.2 = returned e.1 := Classical.byContradiction (fun h => hno ⟨e, he, h⟩)
  have h2 : e'.2 = returned e'.1 := Classical.byContradiction (fun h => hno ⟨e', he', h⟩)
  exact hne (by rw [← h1, ← h2, C60_refuted E c cid gw num limit res h e he e' he'])

/-- The gateway `exId 1` returned `exGood`, and is shown with what the gateway `exId 3` returned. -/
example : ∃ res, (findDhtV2 exDhtV2 exClient (exId 2) (exId 1) 1 3).2.2 = .ok res ∧
    ∃ e ∈ res, e.2 ≠ if e.1 = Ids.toStr (exId 1) then [exGood] else [exBad, exBad] := by
  obtain ⟨res, h, h1, h2⟩ := exDhtV2_returns.1
  refine ⟨res, h, C60_wrong exDhtV2 exClient (exId 2) (exId 1) 1 3 res h (fun k => if k = Ids.toStr (exId 1) then [exGood] else [exBad, exBad]) (Ids.toStr (exId 1)) (Ids.toStr (exId 3)) ?_
    ((mget_isSome_iff _ _).1 (by rw [h1]; rfl)) ((mget_isSome_iff _ _).1 (by rw [h2]; rfl))⟩
  have : Ids.toStr (exId 3) ≠ Ids.toStr (exId 1) := by decide +kernel
  simp [this]

/-- **C60**, partial: the gateways in the map are those which returned offers; the offers shown are those of the last of them, so the map is
right if there is only one. -/
theorem C60_partial (E : Env Sig) (c : Client Sig) (cid gw : Id) (num limit : Int) (res : List (List Char × List SubOffer))
    (h : (findDhtV2 E c cid gw num limit).2.2 = .ok res) (hne : res ≠ []) :
    ∃ entries : List (Id × List SubOffer), (∀ e ∈ entries, ∃ answer cid' nonce funded ch, e.2 ≠ [] ∧
        decode gatewayDHTDiscoverOfferResponse answer = .ok (cid', nonce, true, e.2, funded, false, ch)) ∧
      (∀ k, k ∈ mkeys res ↔ ∃ e ∈ entries, k = Ids.toStr e.1) ∧
      (∀ pre last, entries = pre ++ [last] → ∀ e ∈ res, e.2 = last.2) := by
  rcases findDhtV2_map h with rfl | ⟨r, m, a, cid', nonce', ids, answers, ch, entries, -, -, -, -, hg, rfl⟩
  · exact absurd rfl hne
  · refine ⟨entries, fun e he => ?_, fun k => ?_, fun pre last hl e he => ?_⟩
    · obtain ⟨x, a1, a2, a3, a4, -, a5, a6⟩ := gatherOffers_ok hg e he
      exact ⟨x, a1, a2, a3, a4, a6, a5⟩
    · rw [← mget_isSome_iff, offersMap_get]
      constructor
      · intro hs
        split at hs
        · rename_i hk
          obtain ⟨e, he, hk⟩ := List.mem_map.1 hk
          exact ⟨e, he, hk.symm⟩
        · cases hs
      · rintro ⟨e, he, rfl⟩
        rw [if_pos (List.mem_map.2 ⟨e, he, rfl⟩)]
        rfl
    · rw [offersMap_same entries e he, hl]
      simp

example : ∃ res, (findDhtV2 exDhtV2 exClient (exId 2) (exId 1) 1 3).2.2 = .ok res ∧ res ≠ [] := by
  obtain ⟨res, h, h1, -⟩ := exDhtV2_returns.1
  exact ⟨res, h, fun h => by rw [h] at h1; cases h1⟩

end FcRetrieval.Client
