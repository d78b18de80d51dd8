import Verif.Props.ClientReturn
/-!
# C114: what the success of a discovery call means; C115: which offers it returns
-/
set_option linter.unusedSimpArgs false

namespace FcRetrieval.Client
open FcRetrieval.Ids (Id)
open FcRetrieval.Merkle (exId)
open FcRetrieval.Message (Msg)
open FcRetrieval.Offer (SubOffer CidOffer)
open FcRetrieval.Payment (Addr Voucher)
open FcRetrieval.Register (Record)
open FcRetrieval.Wire (Codec encode decode)
open FcRetrieval.Codecs
open FcRetrieval.Gateway (res_ok_of_bind)
open FcRetrieval.Provider (exMsg exMsg_decode exMsg_signed)

variable {Sig S : Type}

attribute [local irreducible] Provider.exMsg

theorem deref_ok {α : Type} {x : Option α} {a : α} (h : deref x = .ok a) : x = some a := by
  cases x with
  | none => cases h
  | some b => cases h; rfl

/-! ## C114 -/

/-- **C114**, first version of the standard discovery: it succeeds only with an answer of the gateway asked, signed with its registered key, that
names the CID and repeats the nonce of the request; what it returns is the offers in that answer. -/
theorem C114_standard (E : Env Sig) (c : Client Sig) (cid gw : Id) (l : List SubOffer) (h : (findStandard E c cid gw).2 = .ok l) :
    ∃ r m a id found funded, ActiveRecord c gw r ∧ encode clientStandardDiscoverRequest E.pr (some cid, E.nonce 0, E.now + c.settings.ttl, [], []) = .ok m ∧
      asked (findStandard E c cid gw).1 = [(r.netClient, m)] ∧ Answered E 0 r m a ∧
      decode clientStandardDiscoverResponse a = .ok (some id, E.nonce 0, found, l, funded) ∧ Ids.toStr id = Ids.toStr cid := by
  unfold ActiveRecord
  unfold findStandard at h ⊢
  split at h
  · cases h
  · rename_i r hr
    obtain ⟨offers, h1, h2⟩ := res_ok_of_bind h
    obtain ⟨-, -, h2⟩ := res_ok_of_bind h2
    cases h2
    unfold requestStandard at h1
    dsimp only at h1
    obtain ⟨a, ha, h1⟩ := res_ok_of_bind h1
    obtain ⟨m, hm, hseen, hans⟩ := ask_ok ha
    obtain ⟨⟨c', nonce', found, offers, funded⟩, hd, h1⟩ := res_ok_of_bind h1
    dsimp only at h1
    obtain ⟨id, hid, h1⟩ := res_ok_of_bind h1
    cases deref_ok hid
    split at h1
    · cases h1
    · rename_i hc
      split at h1
      · cases h1
      · rename_i hn
        cases h1
        have hn : E.nonce 0 = nonce' := by simpa using hn
        refine ⟨r, m, a, id, found, funded, hr, hm, ?_, hans, by rw [hn]; exact hd, by simpa using hc⟩
        exact congrArg asked hseen

/-- **C114**, first version of the DHT discovery: it succeeds only with a signed answer of the gateway asked that repeats the nonce. -/
theorem C114_dht (E : Env Sig) (c : Client Sig) (cid gw : Id) (num : Int) (res : List (List Char × List SubOffer)) (h : (findDht E c cid gw num).2 = .ok res) :
    ∃ r m a ids answers missed x, ActiveRecord c gw r ∧ encode clientDHTDiscoverRequest E.pr (some cid, E.nonce 0, E.now + c.settings.ttl, num, false, [], []) = .ok m ∧
      asked (findDht E c cid gw num).1 = [(r.netClient, m)] ∧ Answered E 0 r m a ∧
      decode clientDHTDiscoverResponse a = .ok (ids, answers, missed, E.nonce 0, false, x) ∧ ids.length = answers.length := by
  unfold ActiveRecord
  unfold findDht at h ⊢
  split at h
  · cases h
  · rename_i r hr
    obtain ⟨l, h1, h2⟩ := res_ok_of_bind h
    unfold requestDht at h1
    dsimp only at h1
    obtain ⟨a, ha, h1⟩ := res_ok_of_bind h1
    obtain ⟨m, hm, hseen, hans⟩ := ask_ok ha
    obtain ⟨⟨ids, answers, missed, nonce', required, x⟩, hd, h1⟩ := res_ok_of_bind h1
    dsimp only at h1
    split at h1
    · cases h1
    · rename_i hn
      split at h1
      · cases h1
      · rename_i hl
        split at h1
        · cases h1
        · rename_i hq
          have hn : nonce' = E.nonce 0 := by simpa using hn
          have hq : required = false := by simpa using hq
          refine ⟨r, m, a, ids, answers, missed, x, hr, hm, ?_, hans, by rw [← hn, ← hq]; exact hd, by simpa using hl⟩
          exact congrArg asked hseen

/-- **C114 is false** of `FindOffersStandardDiscoveryV2`: when the request for the offers gets no answer, the call which has paid for them returns
no offers and no error. -/
theorem C114_standardV2_refuted (E : Env Sig) (hpr : ProtocolOk E.pr) (c : Client Sig) (cid gw : Id) (hcid : cid.length = 32) (max : Int) (hmax : 1 ≤ max)
    (hn0 : inI64 (E.nonce 0)) (hn2 : inI64 (E.nonce 2)) (httl : inI64 (E.now + c.settings.ttl)) (r : Record) (hr : ActiveRecord c gw r)
    (p p1 p2 : Payment.Mgr Sig) (hp : c.payment = some p) (ch ch2 : Addr) (v v2 : Voucher Sig)
    (hpay : Payment.pay E.signVoucher p (String.ofList r.address) 0 c.settings.searchPrice = (p1, .paid ch v))
    (digests : List (List Char)) (hne : digests ≠ []) (found : Bool) (funded : List Bool) (x : List Char)
    (hsearch : ∀ m, m.type = (clientStandardDiscoverRequestV2).code →
      decode clientStandardDiscoverRequestV2 m = .ok (some cid, E.nonce 0, E.now + c.settings.ttl, ch.toList, E.showVoucher v) →
      ∃ a, Answered E 0 r m a ∧ decode clientStandardDiscoverResponseV2 a = .ok (some cid, E.nonce 0, found, digests, funded, false, x))
    (hpay2 : Payment.pay E.signVoucher p1 (String.ofList r.address) 0 ((digests.take max.toNat).length * c.settings.offerPrice) = (p2, .paid ch2 v2))
    (hlost : ∀ m, E.exchange 2 r.netClient m = none) :
    (findStandardV2 E c cid gw max).2.2 = .ok [] ∧ payments (findStandardV2 E c cid gw max).2.1 =
      [(String.ofList r.address, c.settings.searchPrice), (String.ofList r.address, (digests.take max.toNat).length * c.settings.offerPrice)] := by
  obtain ⟨m, hm, ht, -, -, hd⟩ := C30_clientStandardDiscoverRequestV2 E.pr hpr (some cid) (E.nonce 0) (E.now + c.settings.ttl) ch.toList (E.showVoucher v)
    ⟨cid, rfl, hcid⟩ hn0 httl
  obtain ⟨a, ha, had⟩ := hsearch m ht (hd m.signature).2
  have hreq : requestStandardV2 E 0 r cid (E.nonce 0) (E.now + c.settings.ttl) ch.toList (E.showVoucher v) = ([.asked r.netClient m], .ok (digests, false)) := by
    unfold requestStandardV2
    dsimp only
    rw [hm, ask_answered ha]
    simp only [Res.bind_ok, had, deref, ne_eq, not_true_eq_false, if_false, Bool.false_eq_true]
  have hs : searchStandardV2 E { c with payment := some p1 } r cid ch v = ({ c with payment := some p1 }, [.asked r.netClient m], .ok digests) := by
    unfold searchStandardV2
    dsimp only
    rw [hreq]
  obtain ⟨m2, hm2, -⟩ := C30_clientStandardDiscoverOfferRequest E.pr hpr (some cid) (E.nonce 2) (E.now + c.settings.ttl) (digests.take max.toNat)
    ch2.toList (E.showVoucher v2) ⟨cid, rfl, hcid⟩ hn2 httl
  have hreq2 : requestStandardOffer E 2 r cid (E.nonce 2) (E.now + c.settings.ttl) (digests.take max.toNat) ch2.toList (E.showVoucher v2) =
      ([.asked r.netClient m2], .err) := by
    unfold requestStandardOffer
    dsimp only
    rw [hm2]
    unfold ask
    dsimp only
    rw [hlost]
    rfl
  have hf : fetchStandardV2 E { c with payment := some p1 } r cid (digests.take max.toNat) max = ({ c with payment := some p2 },
      [.paid (String.ofList r.address) ((digests.take max.toNat).length * c.settings.offerPrice) v2, .asked r.netClient m2], .ok []) := by
    unfold fetchStandardV2
    rw [payFor_funded (p := p1) rfl hpay2]
    dsimp only
    rw [hreq2]
    rfl
  have hl : digests.length ≠ 0 := fun h => hne (List.eq_nil_of_length_eq_zero h)
  unfold findStandardV2
  rw [show mget c.active (Ids.toStr gw) = some r from hr]
  dsimp only
  rw [payFor_funded hp hpay]
  dsimp only
  rw [hs]
  dsimp only
  rw [if_neg hl, take_of_limit _ _ (by omega)]
  dsimp only
  rw [hf]
  exact ⟨rfl, rfl⟩

/-- The gateway answered the request with these digests for the CID. -/
def ListedDigests (E : Env Sig) (r : Record) (cid : Id) (digests : List (List Char)) : Prop :=
  ∃ n ≤ 1, ∃ m a id found funded required x, Answered E n r m a ∧ Ids.toStr id = Ids.toStr cid ∧
    decode clientStandardDiscoverResponseV2 a = .ok (some id, E.nonce n, found, digests, funded, required, x)

theorem requestStandardV2_ok {E : Env Sig} {n : Nat} {r : Record} {cid : Id} {nonce ttl : Int} {ch v : List Char} {x : List (List Char) × Bool}
    (h : (requestStandardV2 E n r cid nonce ttl ch v).2 = .ok x) :
    ∃ m a id found digests funded required x', Answered E n r m a ∧ Ids.toStr id = Ids.toStr cid ∧
      decode clientStandardDiscoverResponseV2 a = .ok (some id, nonce, found, digests, funded, required, x') ∧ x = (if required then ([], true) else (digests, false)) := by
  unfold requestStandardV2 at h
  dsimp only at h
  obtain ⟨a, ha, h⟩ := res_ok_of_bind h
  obtain ⟨⟨c', nonce', found, digests, funded, req, x'⟩, hd, h⟩ := res_ok_of_bind h
  dsimp only at h
  obtain ⟨id, hc, h⟩ := res_ok_of_bind h
  cases deref_ok hc
  obtain ⟨m, -, -, hans⟩ := ask_ok ha
  split at h
  · cases h
  · rename_i hid
    split at h
    · cases h
    · rename_i hn
      have hn : nonce = nonce' := by simpa using hn
      refine ⟨m, a, id, found, digests, funded, req, x', hans, by simpa using hid, by rw [hn]; exact hd, ?_⟩
      split at h <;> (cases h; simp_all)

theorem requestStandardOffer_ok {E : Env Sig} {n : Nat} {r : Record} {cid : Id} {nonce ttl : Int} {ds : List (List Char)} {ch v : List Char} {l : List SubOffer}
    (h : (requestStandardOffer E n r cid nonce ttl ds ch v).2 = .ok l) :
    ∃ m a id found funded x, encode clientStandardDiscoverOfferRequest E.pr (some cid, nonce, ttl, ds, ch, v) = .ok m ∧ Answered E n r m a ∧
      Ids.toStr id = Ids.toStr cid ∧ decode clientStandardDiscoverOfferResponse a = .ok (some id, nonce, found, l, funded, false, x) := by
  unfold requestStandardOffer at h
  dsimp only at h
  obtain ⟨a, ha, h⟩ := res_ok_of_bind h
  obtain ⟨⟨c', nonce', found, offers, funded, req, x'⟩, hd, h⟩ := res_ok_of_bind h
  dsimp only at h
  obtain ⟨id, hc, h⟩ := res_ok_of_bind h
  cases deref_ok hc
  obtain ⟨m, hm, -, hans⟩ := ask_ok ha
  split at h
  · cases h
  · rename_i hid
    split at h
    · cases h
    · rename_i hn
      split at h
      · cases h
      · rename_i hq
        cases h
        have hn : nonce = nonce' := by simpa using hn
        have hq : req = false := by simpa using hq
        exact ⟨m, a, id, found, funded, x', hm, hans, by simpa using hid, by rw [hn, ← hq]; exact hd⟩

/-- **C114**, second version of the standard discovery, partial: it succeeds only after a signed answer to the search that names the CID and repeats
the nonce, and where it returns offers they come, in order, from a signed answer to a request for at most `max` of the digests in that first
answer, which also names the CID and repeats its nonce.  What is missing: an error of that second request is not returned
(`C114_standardV2_refuted`). -/
theorem C114_standardV2_partial (E : Env Sig) (c : Client Sig) (cid gw : Id) (max : Int) (l : List SubOffer) (h : (findStandardV2 E c cid gw max).2.2 = .ok l) :
    ∃ r, ActiveRecord c gw r ∧ ∃ digests, ListedDigests E r cid digests ∧
      (l ≠ [] → ∃ ds ttl ch v m a id found offers funded x, ds <+: digests ∧ encode clientStandardDiscoverOfferRequest E.pr (some cid, E.nonce 2, ttl, ds, ch, v) = .ok m ∧
        Answered E 2 r m a ∧ Ids.toStr id = Ids.toStr cid ∧
        decode clientStandardDiscoverOfferResponse a = .ok (some id, E.nonce 2, found, offers, funded, false, x) ∧ l.Sublist offers) := by
  unfold ActiveRecord
  unfold findStandardV2 at h
  split at h
  · cases h
  · rename_i r hr
    refine ⟨r, hr, ?_⟩
    split at h
    · cases h
    · cases h
    · rename_i c1 out ch v ht
      split at h
      · cases h
      · cases h
      · rename_i c2 out1 digests hs
        have hlist : ListedDigests E r cid digests ∨ digests = [] ∧ ∃ d, ListedDigests E r cid d := by
          unfold searchStandardV2 at hs
          dsimp only at hs
          split at hs
          · cases hs
          · cases hs
          · rename_i ds hq
            cases hs
            obtain ⟨m, a, id, found, d, funded, req, x, h1, h2, h3, h4⟩ := requestStandardV2_ok hq
            cases req
            · simp only [Bool.false_eq_true, if_false, Prod.mk.injEq, and_true] at h4
              rw [h4]
              exact .inl ⟨0, by omega, m, a, id, found, funded, _, x, h1, h2, h3⟩
            · simp at h4
          · rename_i ds hq
            split at hs
            · cases hs
            · cases hs
            · rename_i c3 out3 ch3 v3 ht3
              simp only [Prod.mk.injEq] at hs
              obtain ⟨y, hy, h5⟩ := res_ok_of_bind hs.2.2
              cases h5
              obtain ⟨m, a, id, found, d, funded, req, x, h1, h2, h3, h4⟩ := requestStandardV2_ok hy
              cases req
              · simp only [Bool.false_eq_true, if_false] at h4
                rw [h4]
                exact .inl ⟨1, by omega, m, a, id, found, funded, _, x, h1, h2, h3⟩
              · simp only [if_true] at h4
                rw [h4]
                exact .inr ⟨rfl, d, 1, by omega, m, a, id, found, funded, _, x, h1, h2, h3⟩
        have hl2 : ∃ d, ListedDigests E r cid d ∧ (digests ≠ [] → d = digests) := by
          rcases hlist with h | ⟨h1, d, h2⟩
          · exact ⟨_, h, fun _ => rfl⟩
          · exact ⟨d, h2, fun h => absurd h1 h⟩
        obtain ⟨d, hd1, hd2⟩ := hl2
        refine ⟨d, hd1, fun hne => ?_⟩
        split at h
        · cases h
          exact absurd rfl hne
        · rename_i hlen
          have hdn : digests ≠ [] := fun h => hlen (by rw [h]; rfl)
          rw [hd2 hdn]
          split at h
          · rename_i ds hds
            have hpre : ds <+: digests := by
              split at hds
              · rw [(upTo_ok hds).2.1]
                exact List.take_prefix _ _
              · cases hds
                exact List.prefix_refl _
            dsimp only at h
            unfold fetchStandardV2 at h
            split at h
            · cases h
            · cases h
            · rename_i c4 out4 ch4 v4 ht4
              dsimp only at h
              split at h
              · cases h
              · cases h
                exact absurd rfl hne
              · rename_i offers hq
                obtain ⟨m, a, id, found, funded, x, h1, h2, h3, h4⟩ := requestStandardOffer_ok hq
                exact ⟨ds, _, _, _, m, a, id, found, offers, funded, x, hpre, h1, h2, h3, h4, (takeValid_ok h).1⟩
          · cases h

/-- **C114 is false** of `FindOffersDHTDiscoveryV2`: the answer to the request for the offers need not be one to this request. Whatever CID and
nonce it names, say those of an earlier request, its offers are returned. -/
theorem C114_dhtV2_refuted (E : Env Sig) (c c' : Client Sig) (r : Record) (cid : Id) (ids : List Id) (dss : List (List (List Char)))
    (out : List (Out Sig)) (ch : Addr) (v : Voucher Sig)
    (hpay : payFor E (paymentMgr E c) 2 (String.ofList r.address) (((dss.map List.length).sum : Nat) * c.settings.offerPrice) = (c', out, .ok (ch, v)))
    (m a : Msg) (hm : encode clientDHTDiscoverOfferRequest E.pr (some cid, E.nonce 0, dss, ids, ch.toList, E.showVoucher v) = .ok m)
    (ha : Answered E 2 r m a) (cid' : Option Id) (nonce' : Int) (answers : List ((Id × Msg) × List SubOffer)) (x : List Char)
    (hd : decode clientDHTDiscoverOfferResponse a = .ok (cid', nonce', answers.map (·.1.1), answers.map (·.1.2), false, x))
    (ho : ∀ e ∈ answers, e.2 ≠ [] ∧ ∃ cid nonce funded x, decode gatewayDHTDiscoverOfferResponse e.1.2 = .ok (cid, nonce, true, e.2, funded, false, x)) :
    (fetchDhtV2 E c r cid ids dss).2.2 = .ok (offersMap (answers.map (fun e => (e.1.1, e.2)))) := by
  unfold fetchDhtV2
  rw [hpay]
  dsimp only
  unfold requestDhtOffer
  dsimp only
  rw [hm, ask_answered ha]
  simp only [Res.bind_ok, hd, List.length_map, ne_eq, not_true_eq_false, if_false, Bool.false_eq_true]
  rw [List.zip_map', gatherOffers_all answers ho]
  rfl

/-! ## C115 -/

open Classical in
/-- **C115 is false** of `FindOffersStandardDiscoveryV2`: of the offers in the answer it returns all that verify, up to the limit, whichever CID
they are for and whenever they expired. -/
theorem C115_standardV2_refuted (E : Env Sig) (hpr : ProtocolOk E.pr) (c : Client Sig) (cid gw : Id) (hcid : cid.length = 32) (max : Int) (hmax : 1 ≤ max)
    (hn0 : inI64 (E.nonce 0)) (hn2 : inI64 (E.nonce 2)) (httl : inI64 (E.now + c.settings.ttl)) (r : Record) (hr : ActiveRecord c gw r)
    (p p1 p2 : Payment.Mgr Sig) (hp : c.payment = some p) (ch ch2 : Addr) (v v2 : Voucher Sig)
    (hpay : Payment.pay E.signVoucher p (String.ofList r.address) 0 c.settings.searchPrice = (p1, .paid ch v))
    (digests : List (List Char)) (hne : digests ≠ []) (found : Bool) (funded : List Bool) (x : List Char)
    (hsearch : ∀ m, m.type = (clientStandardDiscoverRequestV2).code →
      decode clientStandardDiscoverRequestV2 m = .ok (some cid, E.nonce 0, E.now + c.settings.ttl, ch.toList, E.showVoucher v) →
      ∃ a, Answered E 0 r m a ∧ decode clientStandardDiscoverResponseV2 a = .ok (some cid, E.nonce 0, found, digests, funded, false, x))
    (hpay2 : Payment.pay E.signVoucher p1 (String.ofList r.address) 0 ((digests.take max.toNat).length * c.settings.offerPrice) = (p2, .paid ch2 v2))
    (o : SubOffer) (ho : Verified E o) (hw : Whole o) (found2 : Bool) (funded2 : List Bool) (x2 : List Char)
    (hoffer : ∀ m, m.type = (clientStandardDiscoverOfferRequest).code → decode clientStandardDiscoverOfferRequest m =
        .ok (some cid, E.nonce 2, E.now + c.settings.ttl, digests.take max.toNat, ch2.toList, E.showVoucher v2) →
      ∃ a, Answered E 2 r m a ∧ decode clientStandardDiscoverOfferResponse a = .ok (some cid, E.nonce 2, found2, [o], funded2, false, x2))
    (hkeys : HaveKeys E.provider) : (findStandardV2 E c cid gw max).2.2 = .ok [o] := by
  have := (C110_standardV2 E hpr c cid gw hcid max hmax hn0 hn2 httl r hr p p1 p2 hp ch ch2 v v2 hpay digests hne found funded x hsearch hpay2 [o] found2 funded2 x2 hoffer
    (fun o' h => by rw [List.mem_singleton.1 h]; exact hw) hkeys).1
  rw [this]
  simp only [List.filter_cons, ho, decide_true, if_true, List.filter_nil]
  rw [List.take_of_length_le (by simp; omega)]

/-- A client which asks for the CID 5 in the year 2300 and gets the offer for the CID 2 that expired long ago. -/
def exStale : Env Unit :=
  { exAnswers [exMsg clientStandardDiscoverResponseV2 (some (exId 5), 7, true, [['d']], [false], false, []),
      exMsg clientStandardDiscoverResponseV2 (some (exId 5), 7, true, [['d']], [false], false, []),
      exMsg clientStandardDiscoverOfferResponse (some (exId 5), 9, true, [exGood], [false], false, [])] with now := 10413792000 }

example : (findStandardV2 exStale exClient (exId 5) (exId 1) 2).2.2 = .ok [exGood] ∧ exGood.subCID = some (exId 2) ∧ exGood.expiry < exStale.now := by
  have hdel := C30_clientStandardDiscoverResponseV2 Message.defaultProtocol defaultProtocolOk (some (exId 5)) 7 true [['d']] [false] false []
    (exIdOk 5) ⟨by decide, by decide⟩
  have hdel2 := C30_clientStandardDiscoverOfferResponse Message.defaultProtocol defaultProtocolOk (some (exId 5)) 9 true [exGood] [false] false []
    (exIdOk 5) ⟨by decide, by decide⟩ (exOffers exGood_inRange exBad_inRange (by simp))
  obtain ⟨v, hv⟩ := exMgr_pay 3 (by decide)
  have hv2 : ∃ v, Payment.pay exEnv.signVoucher (exPay exMgr 3) "p" 0 2 = (exPay (exPay exMgr 3) 2, .paid "c" v) := ⟨⟨⟨"c", 0, 1, 5⟩, ()⟩, rfl⟩
  obtain ⟨v2, hv2⟩ := hv2
  refine ⟨C115_standardV2_refuted exStale defaultProtocolOk exClient (exId 5) (exId 1) (Merkle.exId_proper 5) 2 (by decide) ⟨by decide, by decide⟩ ⟨by decide, by decide⟩
    ⟨by decide, by decide⟩ exRecord exClient_active exMgr _ _ rfl "c" "c" v v2 hv [['d']] (by decide) true [false] []
    (fun m _ _ => ⟨_, exAnswers_answered hdel _ 0 m rfl, exMsg_decode hdel⟩) hv2 exGood exGood_verified exGood_whole true [false] []
    (fun m _ _ => ⟨_, exAnswers_answered hdel2 _ 2 m rfl, exMsg_decode hdel2⟩) exEnv_keys, by decide +kernel, by decide +kernel⟩

/-- The search of `exStandard` with the answer to the request for the offers lost. -/
def exLost : Env Unit := exAnswers [exMsg clientStandardDiscoverResponseV2 (some (exId 2), 7, true, [['d'], ['e'], ['f']], [false, false, false], false, [])]

example : (findStandardV2 exLost exClient (exId 2) (exId 1) 2).2.2 = .ok [] ∧ payments (findStandardV2 exLost exClient (exId 2) (exId 1) 2).2.1 = [("p", 3), ("p", 4)] := by
  have hdel := C30_clientStandardDiscoverResponseV2 Message.defaultProtocol defaultProtocolOk (some (exId 2)) 7 true [['d'], ['e'], ['f']] [false, false, false] false []
    (exIdOk 2) ⟨by decide, by decide⟩
  obtain ⟨v, hv⟩ := exMgr_pay 3 (by decide)
  have hv2 : ∃ v, Payment.pay exEnv.signVoucher (exPay exMgr 3) "p" 0 4 = (exPay (exPay exMgr 3) 4, .paid "c" v) := ⟨⟨⟨"c", 0, 1, 7⟩, ()⟩, rfl⟩
  obtain ⟨v2, hv2⟩ := hv2
  exact C114_standardV2_refuted exLost defaultProtocolOk exClient (exId 2) (exId 1) (Merkle.exId_proper 2) 2 (by decide) ⟨by decide, by decide⟩ ⟨by decide, by decide⟩
    ⟨by decide, by decide⟩ exRecord exClient_active exMgr _ _ rfl "c" "c" v v2 hv [['d'], ['e'], ['f']] (by decide) true [false, false, false] []
    (fun m _ _ => ⟨_, exAnswers_answered hdel _ 0 m rfl, exMsg_decode hdel⟩) hv2 (fun _ => rfl)

/-- The success shown by `exStandard_returns` meets the hypothesis of `C114_standardV2_partial`. -/
example : ∃ r digests, ActiveRecord exClient (exId 1) r ∧ ListedDigests exStandard r (exId 2) digests := by
  obtain ⟨r, h1, d, h2, -⟩ := C114_standardV2_partial exStandard exClient (exId 2) (exId 1) 2 _ exStandard_returns.1
  exact ⟨r, d, h1, h2⟩

theorem selectGo_rows (H : Merkle.Hash) (db : SqlOffer.DB) (max : Int) (Q : Int → Prop) : ∀ (rows : List SqlOffer.OfferRow) (res : List CidOffer) (find : Bool)
    (out : List CidOffer) (f : Bool), SqlOffer.selectGo H db max rows res find = .ok (out, f) → (∀ r ∈ rows, Q r.expiry) → (∀ o ∈ res, Q o.expiry) →
      ∀ o ∈ out, Q o.expiry
  | [], res, find, out, f, h, _, h2 => by
    simp only [SqlOffer.selectGo, Res.ok.injEq, Prod.mk.injEq] at h
    rw [← h.1]
    exact h2
  | r :: rs, res, find, out, f, h, h1, h2 => by
    obtain ⟨⟨o, has⟩, ho, h⟩ := res_ok_of_bind h
    have hexp : o.expiry = r.expiry := by
      unfold SqlOffer.rebuild at ho
      split at ho
      · cases ho
      · split at ho
        · cases ho
        · rename_i o' ho'
          simp only [Res.ok.injEq, Prod.mk.injEq] at ho
          rw [← ho.1]
          unfold Offer.newOffer at ho'
          split at ho'
          · cases ho'
          · split at ho'
            · cases ho'
            · simp only [Option.some.injEq] at ho'
              rw [← ho']
    have h3 : ∀ x ∈ res ++ [o], Q x.expiry := by
      intro x hx
      rcases List.mem_append.1 hx with hx | hx
      · exact h2 x hx
      · rw [List.mem_singleton.1 hx, hexp]
        exact h1 r List.mem_cons_self
    dsimp only at h
    split at h
    · simp only [pure, Res.ok.injEq, Prod.mk.injEq] at h
      rw [← h.1]
      exact h3
    · exact selectGo_rows H db max Q rs _ _ out f h (fun r hr => h1 r (List.mem_cons_of_mem _ hr)) h3

/-- A database lookup by CID returns no offer which the clock of the host takes for expired, whatever the tables hold. -/
theorem getOffers_unexpired {H : Merkle.Hash} {order : List SqlOffer.OfferRow → List SqlOffer.OfferRow} (hord : ∀ l, (order l).Perm l) {off now : Int} {db : SqlOffer.DB}
    {cid : Id} {offers : List CidOffer} {found : Bool} (h : SqlOffer.getOffers H order off now db cid = .ok (offers, found)) :
    ∀ o ∈ offers, now - off < o.expiry := by
  refine selectGo_rows H db (-1) (fun e => now - off < e) _ [] false offers found h (fun r hr => ?_) (fun o ho => by cases ho)
  obtain ⟨r', hr', hm⟩ := List.mem_flatMap.1 ((hord _).mem_iff.1 hr)
  split at hm
  · rename_i hu
    obtain ⟨k, -, rfl⟩ := List.mem_map.1 hm
    simp only [SqlOffer.unexpired, Bool.and_eq_true, decide_eq_true_eq] at hu
    exact hu.2
  · cases hm

/-- **C115**, the part that holds: from a gateway that runs the code of `Model/Gateway`, whatever it has stored, the first version of the standard
discovery returns only offers for the CID asked, unexpired by the clock of the gateway less its distance from UTC.
Missing: the gateway may lie, and the second version does not exclude it either. -/
theorem C115_standard_honest_partial (E : Env Sig) (hpr : ProtocolOk E.pr) (c : Client Sig) (cid gw : Id) (hcid : cid.length = 32)
    (hn0 : inI64 (E.nonce 0)) (httl : inI64 (E.now + c.settings.ttl)) (r : Record) (hr : ActiveRecord c gw r)
    (G : Gateway.Env S) (g : Gateway.Core S) (hb : Behind E r 0 G g) (hord : ∀ l, (G.order l).Perm l) (hnow : G.now ≤ E.now + c.settings.ttl)
    (offers : List CidOffer) (found : Bool) (hoff : SqlOffer.getOffers G.H G.order G.off G.now g.db cid = .ok (offers, found))
    (hin : ∀ x ∈ offers.map (fun o => Offer.subOffer G.H o cid), Offer.SubInRange x)
    (hw : ∀ x ∈ offers.map (fun o => Offer.subOffer G.H o cid), Whole x) (hkeys : HaveKeys E.provider) :
    ∃ l, (findStandard E c cid gw).2 = .ok l ∧ ∀ x ∈ l, x.subCID = some cid ∧ G.now - G.off < x.expiry := by
  refine ⟨_, (C110_standard_honest E hpr c cid gw hcid hn0 httl r hr G g hb hnow offers found hoff hin hw hkeys).1, fun x hx => ?_⟩
  obtain ⟨o, ho, rfl⟩ := List.mem_map.1 hx
  exact ⟨rfl, getOffers_unexpired hord hoff o ho⟩

example : ∃ l, (findStandard exEnv exClient (exId 2) (exId 1)).2 = .ok l ∧ ∀ x ∈ l, x.subCID = some (exId 2) ∧ Gateway.exEnv.now - Gateway.exEnv.off < x.expiry :=
  C115_standard_honest_partial exEnv defaultProtocolOk exClient (exId 2) (exId 1) (Merkle.exId_proper 2) ⟨by decide, by decide⟩ ⟨by decide, by decide⟩ exRecord
    exClient_active Gateway.exEnv exHolder (exBehind 0) (fun l => List.Perm.refl l) (by decide) [Gateway.exSignedOffer] true exHolder_offers
    (exOffers exGood_inRange exBad_inRange (fun o ho => .inl (List.mem_singleton.1 ho))) (exOffers exGood_whole exBad_whole (fun o ho => .inl (List.mem_singleton.1 ho)))
    exEnv_keys

end FcRetrieval.Client
