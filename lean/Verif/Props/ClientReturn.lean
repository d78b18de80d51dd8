import Verif.Lemmas.ClientCalm
import Verif.Lemmas.ClientExamples
import Verif.Lemmas.ProviderExamples
import Verif.Props.Gateway
/-!
# C110: what a discovery that is served returns
-/
set_option linter.unusedSimpArgs false

namespace FcRetrieval.Client
open FcRetrieval.Ids (Id)
open FcRetrieval.Merkle (exId)
open FcRetrieval.Message (Msg)
open FcRetrieval.Offer (SubOffer CidOffer)
open FcRetrieval.Payment (Addr Voucher)
open FcRetrieval.Register (Record)
open FcRetrieval.Wire (Codec encode decode)
open FcRetrieval.Codecs
open FcRetrieval.Gateway (res_ok_of_bind)
open FcRetrieval.Provider (exMsg exMsg_decode exMsg_signed)

variable {Sig S : Type}

attribute [local irreducible] Provider.exMsg

theorem payFor_funded {E : Env Sig} {c : Client Sig} {p p' : Payment.Mgr Sig} (hp : c.payment = some p) {n : Nat} {recipient : Addr} {amount : Int} {ch : Addr}
    {v : Voucher Sig} (h : Payment.pay E.signVoucher p recipient 0 amount = (p', .paid ch v)) :
    payFor E c n recipient amount = ({ c with payment := some p' }, [.paid recipient amount v], .ok (ch, v)) := by
  unfold payFor
  rw [hp]
  dsimp only
  rw [h]

theorem take_of_limit {α : Type} (l : List α) (max : Int) (h : 0 ≤ max) :
    (if (l.length : Int) > max then upTo max l else .ok l) = .ok (l.take max.toNat) := by
  split
  · unfold upTo
    rw [if_neg (by omega)]
  · rw [List.take_of_length_le (by omega)]

open Classical in
/-- What the client does in the second version of the standard discovery. -/
theorem standardV2_run (E : Env Sig) (hpr : ProtocolOk E.pr) (c : Client Sig) (cid gw : Id) (hcid : cid.length = 32) (max : Int) (hmax : 1 ≤ max)
    (hn0 : inI64 (E.nonce 0)) (hn2 : inI64 (E.nonce 2)) (httl : inI64 (E.now + c.settings.ttl)) (r : Record) (hr : ActiveRecord c gw r)
    (p p1 p2 : Payment.Mgr Sig) (hp : c.payment = some p) (ch ch2 : Addr) (v v2 : Voucher Sig)
    (hpay : Payment.pay E.signVoucher p (String.ofList r.address) 0 c.settings.searchPrice = (p1, .paid ch v))
    (digests : List (List Char)) (hne : digests ≠ []) (found : Bool) (funded : List Bool) (x : List Char)
    (hsearch : ∀ m, m.type = (clientStandardDiscoverRequestV2).code →
      decode clientStandardDiscoverRequestV2 m = .ok (some cid, E.nonce 0, E.now + c.settings.ttl, ch.toList, E.showVoucher v) →
      ∃ a, Answered E 0 r m a ∧ decode clientStandardDiscoverResponseV2 a = .ok (some cid, E.nonce 0, found, digests, funded, false, x))
    (hpay2 : Payment.pay E.signVoucher p1 (String.ofList r.address) 0 ((digests.take max.toNat).length * c.settings.offerPrice) = (p2, .paid ch2 v2))
    (offers : List SubOffer) (found2 : Bool) (funded2 : List Bool) (x2 : List Char)
    (hoffer : ∀ m, m.type = (clientStandardDiscoverOfferRequest).code → decode clientStandardDiscoverOfferRequest m =
        .ok (some cid, E.nonce 2, E.now + c.settings.ttl, digests.take max.toNat, ch2.toList, E.showVoucher v2) →
      ∃ a, Answered E 2 r m a ∧ decode clientStandardDiscoverOfferResponse a = .ok (some cid, E.nonce 2, found2, offers, funded2, false, x2))
    (hw : ∀ o ∈ offers, Whole o) (hkeys : HaveKeys E.provider) :
    ∃ m m2, decode clientStandardDiscoverRequestV2 m = .ok (some cid, E.nonce 0, E.now + c.settings.ttl, ch.toList, E.showVoucher v) ∧
      decode clientStandardDiscoverOfferRequest m2 = .ok (some cid, E.nonce 2, E.now + c.settings.ttl, digests.take max.toNat, ch2.toList, E.showVoucher v2) ∧
      findStandardV2 E c cid gw max = ({ c with payment := some p2 }, [.paid (String.ofList r.address) c.settings.searchPrice v, .asked r.netClient m,
        .paid (String.ofList r.address) ((digests.take max.toNat).length * c.settings.offerPrice) v2, .asked r.netClient m2],
        .ok ((offers.filter (fun o => decide (Verified E o))).take max.toNat)) := by
  obtain ⟨m, hm, ht, -, -, hd⟩ := C30_clientStandardDiscoverRequestV2 E.pr hpr (some cid) (E.nonce 0) (E.now + c.settings.ttl) ch.toList (E.showVoucher v)
    ⟨cid, rfl, hcid⟩ hn0 httl
  obtain ⟨a, ha, had⟩ := hsearch m ht (hd m.signature).2
  obtain ⟨m2, hm2, ht2, -, -, hd2⟩ := C30_clientStandardDiscoverOfferRequest E.pr hpr (some cid) (E.nonce 2) (E.now + c.settings.ttl) (digests.take max.toNat)
    ch2.toList (E.showVoucher v2) ⟨cid, rfl, hcid⟩ hn2 httl
  obtain ⟨a2, ha2, had2⟩ := hoffer m2 ht2 (hd2 m2.signature).2
  have hreq : requestStandardV2 E 0 r cid (E.nonce 0) (E.now + c.settings.ttl) ch.toList (E.showVoucher v) = ([.asked r.netClient m], .ok (digests, false)) := by
    unfold requestStandardV2
    dsimp only
    rw [hm, ask_answered ha]
    simp only [Res.bind_ok, had, deref, ne_eq, not_true_eq_false, if_false, Bool.false_eq_true]
  have hreq2 : requestStandardOffer E 2 r cid (E.nonce 2) (E.now + c.settings.ttl) (digests.take max.toNat) ch2.toList (E.showVoucher v2) =
      ([.asked r.netClient m2], .ok offers) := by
    unfold requestStandardOffer
    dsimp only
    rw [hm2, ask_answered ha2]
    simp only [Res.bind_ok, had2, deref, ne_eq, not_true_eq_false, if_false, Bool.false_eq_true]
  have hs : searchStandardV2 E { c with payment := some p1 } r cid ch v = ({ c with payment := some p1 }, [.asked r.netClient m], .ok digests) := by
    unfold searchStandardV2
    dsimp only
    rw [hreq]
  have hf : fetchStandardV2 E { c with payment := some p1 } r cid (digests.take max.toNat) max = ({ c with payment := some p2 },
      [.paid (String.ofList r.address) ((digests.take max.toNat).length * c.settings.offerPrice) v2, .asked r.netClient m2],
      .ok ((offers.filter (fun o => decide (Verified E o))).take max.toNat)) := by
    unfold fetchStandardV2
    rw [payFor_funded (p := p1) rfl hpay2]
    dsimp only
    rw [hreq2]
    dsimp only
    rw [takeValid_eq (by omega) (fun o ho => checkOffer_calm hkeys (hw o ho))]
    simp
  have hl : digests.length ≠ 0 := fun h => hne (List.eq_nil_of_length_eq_zero h)
  unfold findStandardV2
  rw [show mget c.active (Ids.toStr gw) = some r from hr]
  dsimp only
  rw [payFor_funded hp hpay]
  dsimp only
  rw [hs]
  dsimp only
  rw [if_neg hl, take_of_limit _ _ (by omega)]
  dsimp only
  rw [hf]
  exact ⟨m, m2, hd m.signature |>.2, hd2 m2.signature |>.2, rfl⟩

open Classical in
/-- **C110**, second version of the standard discovery: with funds in the channel, and a gateway which answers the search with digests and
the request for the first `max` of them with offers, it returns of these offers those which verify, at most `max` of them, and it pays for
one search and for the digests taken. -/
theorem C110_standardV2 (E : Env Sig) (hpr : ProtocolOk E.pr) (c : Client Sig) (cid gw : Id) (hcid : cid.length = 32) (max : Int) (hmax : 1 ≤ max)
    (hn0 : inI64 (E.nonce 0)) (hn2 : inI64 (E.nonce 2)) (httl : inI64 (E.now + c.settings.ttl)) (r : Record) (hr : ActiveRecord c gw r)
    (p p1 p2 : Payment.Mgr Sig) (hp : c.payment = some p) (ch ch2 : Addr) (v v2 : Voucher Sig)
    (hpay : Payment.pay E.signVoucher p (String.ofList r.address) 0 c.settings.searchPrice = (p1, .paid ch v))
    (digests : List (List Char)) (hne : digests ≠ []) (found : Bool) (funded : List Bool) (x : List Char)
    (hsearch : ∀ m, m.type = (clientStandardDiscoverRequestV2).code →
      decode clientStandardDiscoverRequestV2 m = .ok (some cid, E.nonce 0, E.now + c.settings.ttl, ch.toList, E.showVoucher v) →
      ∃ a, Answered E 0 r m a ∧ decode clientStandardDiscoverResponseV2 a = .ok (some cid, E.nonce 0, found, digests, funded, false, x))
    (hpay2 : Payment.pay E.signVoucher p1 (String.ofList r.address) 0 ((digests.take max.toNat).length * c.settings.offerPrice) = (p2, .paid ch2 v2))
    (offers : List SubOffer) (found2 : Bool) (funded2 : List Bool) (x2 : List Char)
    (hoffer : ∀ m, m.type = (clientStandardDiscoverOfferRequest).code → decode clientStandardDiscoverOfferRequest m =
        .ok (some cid, E.nonce 2, E.now + c.settings.ttl, digests.take max.toNat, ch2.toList, E.showVoucher v2) →
      ∃ a, Answered E 2 r m a ∧ decode clientStandardDiscoverOfferResponse a = .ok (some cid, E.nonce 2, found2, offers, funded2, false, x2))
    (hw : ∀ o ∈ offers, Whole o) (hkeys : HaveKeys E.provider) :
    (findStandardV2 E c cid gw max).2.2 = .ok ((offers.filter (fun o => decide (Verified E o))).take max.toNat) ∧
      payments (findStandardV2 E c cid gw max).2.1 = [(String.ofList r.address, c.settings.searchPrice),
        (String.ofList r.address, (digests.take max.toNat).length * c.settings.offerPrice)] ∧
      (findStandardV2 E c cid gw max).1 = { c with payment := some p2 } := by
  obtain ⟨m, m2, -, -, h⟩ := standardV2_run E hpr c cid gw hcid max hmax hn0 hn2 httl r hr p p1 p2 hp ch ch2 v v2 hpay digests hne found funded x hsearch hpay2 offers found2 funded2 x2 hoffer hw hkeys
  rw [h]
  exact ⟨rfl, rfl, rfl⟩

theorem exMgr_pay (amount : Int) (h : amount ≤ 1000000000000000) : ∃ v, Payment.pay exEnv.signVoucher exMgr "p" 0 amount = (exPay exMgr amount, .paid "c" v) := by
  refine ⟨⟨⟨"c", 0, 0, 0 + amount⟩, ()⟩, Prod.ext rfl ?_⟩
  · unfold Payment.pay
    simp only [exMgr, if_true]
    rw [if_neg (by omega)]
    rfl

/-- A paid search and a paid request for two of three digests, answered with three offers of which two verify. -/
def exStandardOffers : List SubOffer := [exBad, exGood, exGood]
def exStandard : Env Unit :=
  exAnswers [exMsg clientStandardDiscoverResponseV2 (some (exId 2), 7, true, [['d'], ['e'], ['f']], [false, false, false], false, []),
    exMsg clientStandardDiscoverResponseV2 (some (exId 2), 7, true, [['d'], ['e'], ['f']], [false, false, false], false, []),
    exMsg clientStandardDiscoverOfferResponse (some (exId 2), 9, true, exStandardOffers, [false, false, false], false, [])]

theorem exBad_not : ¬ Verified exEnv exBad := by
  rintro ⟨⟨pid, r, k, raw, h1, h2, -⟩, -⟩
  rw [exBad_unknown.1] at h1
  cases h1
  rw [exBad_unknown.2] at h2
  cases h2

theorem exStandard_returns : (findStandardV2 exStandard exClient (exId 2) (exId 1) 2).2.2 = .ok [exGood, exGood] ∧
    payments (findStandardV2 exStandard exClient (exId 2) (exId 1) 2).2.1 = [("p", 3), ("p", 4)] := by
  have hdel := C30_clientStandardDiscoverResponseV2 Message.defaultProtocol defaultProtocolOk (some (exId 2)) 7 true [['d'], ['e'], ['f']] [false, false, false] false []
    (exIdOk 2) ⟨by decide, by decide⟩
  have hdel2 := C30_clientStandardDiscoverOfferResponse Message.defaultProtocol defaultProtocolOk (some (exId 2)) 9 true exStandardOffers [false, false, false] false []
    (exIdOk 2) ⟨by decide, by decide⟩ (exOffers exGood_inRange exBad_inRange (by simp [exStandardOffers]))
  obtain ⟨v, hv⟩ := exMgr_pay 3 (by decide)
  have hv2 : ∃ v, Payment.pay exEnv.signVoucher (exPay exMgr 3) "p" 0 4 = (exPay (exPay exMgr 3) 4, .paid "c" v) := ⟨⟨⟨"c", 0, 1, 7⟩, ()⟩, rfl⟩
  obtain ⟨v2, hv2⟩ := hv2
  have := C110_standardV2 exStandard defaultProtocolOk exClient (exId 2) (exId 1) (Merkle.exId_proper 2) 2 (by decide) ⟨by decide, by decide⟩ ⟨by decide, by decide⟩
    ⟨by decide, by decide⟩ exRecord exClient_active exMgr _ _ rfl "c" "c" v v2 hv [['d'], ['e'], ['f']] (by decide) true [false, false, false] []
    (fun m _ _ => ⟨_, exAnswers_answered hdel _ 0 m rfl, exMsg_decode hdel⟩) hv2 exStandardOffers true [false, false, false] []
    (fun m _ _ => ⟨_, exAnswers_answered hdel2 _ 2 m rfl, exMsg_decode hdel2⟩) (exOffers exGood_whole exBad_whole (by simp [exStandardOffers])) exEnv_keys
  refine ⟨this.1.trans ?_, this.2.1⟩
  have h1 : Verified exStandard exGood := exGood_verified
  have h2 : ¬ Verified exStandard exBad := exBad_not
  simp [exStandardOffers, h1, h2]

example : ∃ r, (findStandardV2 exStandard exClient (exId 2) (exId 1) 2).2.2 = .ok r ∧ r.length = 2 := ⟨_, exStandard_returns.1, rfl⟩

/-- **C110**, first version of the standard discovery, with the gateway: from a gateway that runs the code of `Model/Gateway` the client gets
exactly the offers which the gateway finds for the CID. -/
theorem C110_standard_honest (E : Env Sig) (hpr : ProtocolOk E.pr) (c : Client Sig) (cid gw : Id) (hcid : cid.length = 32)
    (hn0 : inI64 (E.nonce 0)) (httl : inI64 (E.now + c.settings.ttl)) (r : Record) (hr : ActiveRecord c gw r)
    (G : Gateway.Env S) (g : Gateway.Core S) (hb : Behind E r 0 G g) (hnow : G.now ≤ E.now + c.settings.ttl)
    (offers : List CidOffer) (found : Bool) (hoff : SqlOffer.getOffers G.H G.order G.off G.now g.db cid = .ok (offers, found))
    (hin : ∀ x ∈ offers.map (fun o => Offer.subOffer G.H o cid), Offer.SubInRange x)
    (hw : ∀ x ∈ offers.map (fun o => Offer.subOffer G.H o cid), Whole x) (hkeys : HaveKeys E.provider) :
    (findStandard E c cid gw).2 = .ok (offers.map (fun o => Offer.subOffer G.H o cid)) ∧ payments (findStandard E c cid gw).1 = [] := by
  obtain ⟨m, hm, ht, -, -, hd⟩ := C30_clientStandardDiscoverRequest E.pr hpr (some cid) (E.nonce 0) (E.now + c.settings.ttl) [] [] ⟨cid, rfl, hcid⟩ hn0 httl
  have hd : decode clientStandardDiscoverRequest m = _ := (hd m.signature).2
  obtain ⟨a, h1, h2, h3⟩ := hb.respond (b1 := .status 400) (b2 := .status 500) (C30_clientStandardDiscoverResponse G.pr hb.protocol (some cid) (E.nonce 0) found
    (offers.map (fun o => Offer.subOffer G.H o cid)) (offers.map (fun _ => false)) ⟨cid, rfl, hcid⟩ hn0 hin)
  have hserve : Gateway.serve G g .standard m = (g, [.message a]) := by
    simp only [Gateway.serve]
    unfold Gateway.standard
    rw [hd]
    dsimp only
    rw [if_neg (by omega)]
    simp only [Gateway.getOffers, hoff]
    rw [h1]
  have ha : Answered E 0 r m a := by
    refine ⟨?_, h3⟩
    rw [hb.served]
    have : clientKind m.type = some .standard := by
      rw [ht]
      rfl
    rw [this]
    simp only [Option.bind_some, hserve, reply]
  have hreq : requestStandard E 0 r cid (E.nonce 0) (E.now + c.settings.ttl) [] [] = ([.asked r.netClient m], .ok (offers.map (fun o => Offer.subOffer G.H o cid))) := by
    unfold requestStandard
    dsimp only
    rw [hm, ask_answered ha]
    simp only [Res.bind_ok, h2, deref, ne_eq, not_true_eq_false, if_false, Bool.false_eq_true]
  unfold findStandard
  rw [show mget c.active (Ids.toStr gw) = some r from hr]
  dsimp only
  rw [hreq]
  obtain ⟨l, hl⟩ := checkOffers_panic (E := E) (fun o ho => checkOffer_calm hkeys (hw o ho))
  simp only [Res.bind_ok, hl]
  exact ⟨rfl, rfl⟩

open Classical in
/-- What client and gateway do in the second version of the standard discovery. -/
theorem standardV2_honest_run (E : Env Sig) (hpr : ProtocolOk E.pr) (c : Client Sig) (cid gw : Id) (hcid : cid.length = 32) (max : Int) (hmax : 1 ≤ max)
    (hn0 : inI64 (E.nonce 0)) (hn2 : inI64 (E.nonce 2)) (httl : inI64 (E.now + c.settings.ttl)) (r : Record) (hr : ActiveRecord c gw r)
    (p p1 p2 : Payment.Mgr Sig) (hp : c.payment = some p) (ch ch2 : Addr) (v v2 : Voucher Sig)
    (hpay : Payment.pay E.signVoucher p (String.ofList r.address) 0 c.settings.searchPrice = (p1, .paid ch v))
    (G G2 : Gateway.Env S) (g g2 : Gateway.Core S) (hb : Behind E r 0 G g) (hb2 : Behind E r 2 G2 g2)
    (hnow : G.now ≤ E.now + c.settings.ttl) (hnow2 : G2.now ≤ E.now + c.settings.ttl)
    (hworth : Gateway.Pays G g ch.toList (E.showVoucher v) g.searchPrice)
    (offers : List CidOffer) (hne : offers ≠ []) (found : Bool) (hoff : SqlOffer.getOffers G.H G.order G.off G.now g.db cid = .ok (offers, found))
    (hprov : ∀ o ∈ offers, o.providerID ≠ none)
    (hpay2 : Payment.pay E.signVoucher p1 (String.ofList r.address) 0 ((offers.take max.toNat).length * c.settings.offerPrice) = (p2, .paid ch2 v2))
    (hworth2 : Gateway.Pays G2 g2 ch2.toList (E.showVoucher v2) (g2.offerPrice * (offers.take max.toNat).length))
    (hoff2 : ((Gateway.digestTexts G offers).take max.toNat).map (fun d => SqlOffer.getByDigest G2.H G2.order G2.off G2.now g2.db (Gateway.readDigest G2 d)) =
      (offers.take max.toNat).map (fun o => .ok (some o)))
    (hin : ∀ x ∈ (offers.take max.toNat).map (fun o => Offer.subOffer G2.H o cid), Offer.SubInRange x)
    (hw : ∀ x ∈ (offers.take max.toNat).map (fun o => Offer.subOffer G2.H o cid), Whole x) (hkeys : HaveKeys E.provider) :
    ∃ m m2, decode clientStandardDiscoverRequestV2 m = .ok (some cid, E.nonce 0, E.now + c.settings.ttl, ch.toList, E.showVoucher v) ∧
      decode clientStandardDiscoverOfferRequest m2 =
        .ok (some cid, E.nonce 2, E.now + c.settings.ttl, (Gateway.digestTexts G offers).take max.toNat, ch2.toList, E.showVoucher v2) ∧
      findStandardV2 E c cid gw max = ({ c with payment := some p2 }, [.paid (String.ofList r.address) c.settings.searchPrice v, .asked r.netClient m,
        .paid (String.ofList r.address) ((offers.take max.toNat).length * c.settings.offerPrice) v2, .asked r.netClient m2],
        .ok (((offers.take max.toNat).map (fun o => Offer.subOffer G2.H o cid)).filter (fun o => decide (Verified E o)))) := by
  have hlen : (Gateway.digestTexts G offers).length = offers.length := by simp [Gateway.digestTexts]
  have hlen2 : ((Gateway.digestTexts G offers).take max.toNat).length = (offers.take max.toNat).length := by simp [hlen]
  obtain ⟨amount, hcred, hge⟩ := hworth
  obtain ⟨amount2, hcred2, hge2⟩ := hworth2
  have hrun := standardV2_run E hpr c cid gw hcid max hmax hn0 hn2 httl r hr p p1 p2 hp ch ch2 v v2 hpay (Gateway.digestTexts G offers)
    (by intro h; rw [h] at hlen; exact hne (List.eq_nil_of_length_eq_zero (by simpa using hlen.symm))) found (offers.map (fun _ => false)) [] ?_ (by rw [hlen2]; exact hpay2)
    ((offers.take max.toNat).map (fun o => Offer.subOffer G2.H o cid)) (!((Gateway.digestTexts G offers).take max.toNat).isEmpty)
    (((Gateway.digestTexts G offers).take max.toNat).map (fun _ => true)) [] ?_ hw hkeys
  · obtain ⟨m, m2, g1, g2, g3⟩ := hrun
    refine ⟨m, m2, g1, g2, ?_⟩
    have ht : ((((offers.take max.toNat).map (fun o => Offer.subOffer G2.H o cid)).filter (fun o => decide (Verified E o))).take max.toNat) =
        ((offers.take max.toNat).map (fun o => Offer.subOffer G2.H o cid)).filter (fun o => decide (Verified E o)) := by
      refine List.take_of_length_le (Nat.le_trans (List.length_filter_le _ _) ?_)
      simp
      omega
    rw [g3, hlen2, ht]
  · intro m ht hd
    obtain ⟨a, h1, h2, h3⟩ := hb.respond (b1 := .status 400) (b2 := .status 500) (C30_clientStandardDiscoverResponseV2 G.pr hb.protocol (some cid) (E.nonce 0) found
      (Gateway.digestTexts G offers) (offers.map (fun _ => false)) false [] ⟨cid, rfl, hcid⟩ hn0)
    refine ⟨a, ⟨?_, h3⟩, h2⟩
    rw [hb.served]
    have : clientKind m.type = some .standardV2 := by
      rw [ht]
      rfl
    rw [this]
    simp only [Option.bind_some, Gateway.serve]
    unfold Gateway.standardV2
    rw [hd]
    dsimp only
    rw [if_neg (by omega)]
    simp only [Gateway.getOffers, hoff]
    rw [Gateway.receive_credited hcred]
    dsimp only
    rw [if_pos hge, Gateway.digests_eq G offers hprov]
    exact congrArg reply h1
  · intro m ht hd
    obtain ⟨a, h1, h2, h3⟩ := hb2.respond (b1 := .status 400) (b2 := .status 500) (C30_clientStandardDiscoverOfferResponse G2.pr hb2.protocol (some cid) (E.nonce 2)
      (!((Gateway.digestTexts G offers).take max.toNat).isEmpty) ((offers.take max.toNat).map (fun o => Offer.subOffer G2.H o cid))
      (((Gateway.digestTexts G offers).take max.toNat).map (fun _ => true)) false [] ⟨cid, rfl, hcid⟩ hn2 hin)
    refine ⟨a, ⟨?_, h3⟩, h2⟩
    rw [hb2.served]
    have : clientKind m.type = some .standardOffer := by
      rw [ht]
      rfl
    rw [this]
    simp only [Option.bind_some, Gateway.serve]
    unfold Gateway.standardOffer
    rw [hd]
    dsimp only
    rw [if_neg (by omega), Gateway.receive_credited hcred2]
    dsimp only
    rw [if_pos (by rw [hlen2]; exact hge2), Gateway.offersByDigest_eq G2 g2 cid _ _ hoff2]
    exact congrArg reply h1

open Classical in
/-- **C110**, second version of the standard discovery, with the gateway: if the vouchers of the client are worth the prices of a gateway
that runs the code of `Model/Gateway`, the client gets of the first `max` offers which the gateway has for the CID those that verify. -/
theorem C110_standardV2_honest (E : Env Sig) (hpr : ProtocolOk E.pr) (c : Client Sig) (cid gw : Id) (hcid : cid.length = 32) (max : Int) (hmax : 1 ≤ max)
    (hn0 : inI64 (E.nonce 0)) (hn2 : inI64 (E.nonce 2)) (httl : inI64 (E.now + c.settings.ttl)) (r : Record) (hr : ActiveRecord c gw r)
    (p p1 p2 : Payment.Mgr Sig) (hp : c.payment = some p) (ch ch2 : Addr) (v v2 : Voucher Sig)
    (hpay : Payment.pay E.signVoucher p (String.ofList r.address) 0 c.settings.searchPrice = (p1, .paid ch v))
    (G G2 : Gateway.Env S) (g g2 : Gateway.Core S) (hb : Behind E r 0 G g) (hb2 : Behind E r 2 G2 g2)
    (hnow : G.now ≤ E.now + c.settings.ttl) (hnow2 : G2.now ≤ E.now + c.settings.ttl)
    (hworth : Gateway.Pays G g ch.toList (E.showVoucher v) g.searchPrice)
    (offers : List CidOffer) (hne : offers ≠ []) (found : Bool) (hoff : SqlOffer.getOffers G.H G.order G.off G.now g.db cid = .ok (offers, found))
    (hprov : ∀ o ∈ offers, o.providerID ≠ none)
    (hpay2 : Payment.pay E.signVoucher p1 (String.ofList r.address) 0 ((offers.take max.toNat).length * c.settings.offerPrice) = (p2, .paid ch2 v2))
    (hworth2 : Gateway.Pays G2 g2 ch2.toList (E.showVoucher v2) (g2.offerPrice * (offers.take max.toNat).length))
    (hoff2 : ((Gateway.digestTexts G offers).take max.toNat).map (fun d => SqlOffer.getByDigest G2.H G2.order G2.off G2.now g2.db (Gateway.readDigest G2 d)) =
      (offers.take max.toNat).map (fun o => .ok (some o)))
    (hin : ∀ x ∈ (offers.take max.toNat).map (fun o => Offer.subOffer G2.H o cid), Offer.SubInRange x)
    (hw : ∀ x ∈ (offers.take max.toNat).map (fun o => Offer.subOffer G2.H o cid), Whole x) (hkeys : HaveKeys E.provider) :
    (findStandardV2 E c cid gw max).2.2 =
      .ok (((offers.take max.toNat).map (fun o => Offer.subOffer G2.H o cid)).filter (fun o => decide (Verified E o))) := by
  obtain ⟨m, m2, -, -, h⟩ := standardV2_honest_run E hpr c cid gw hcid max hmax hn0 hn2 httl r hr p p1 p2 hp ch ch2 v v2 hpay G G2 g g2 hb hb2 hnow hnow2 hworth offers hne found hoff hprov hpay2 hworth2 hoff2 hin hw hkeys
  rw [h]

example : (findStandard exEnv exClient (exId 2) (exId 1)).2 = .ok [exGood] :=
  (C110_standard_honest exEnv defaultProtocolOk exClient (exId 2) (exId 1) (Merkle.exId_proper 2) ⟨by decide, by decide⟩ ⟨by decide, by decide⟩ exRecord
    exClient_active Gateway.exEnv exHolder (exBehind 0) (by decide) [Gateway.exSignedOffer] true exHolder_offers
    (exOffers exGood_inRange exBad_inRange (fun o ho => .inl (List.mem_singleton.1 ho))) (exOffers exGood_whole exBad_whole (fun o ho => .inl (List.mem_singleton.1 ho)))
    exEnv_keys).1

theorem exHonest : (findStandardV2 exEnv exClient (exId 2) (exId 1) 1).2.2 = .ok [exGood] := by
  obtain ⟨v, hv⟩ := exMgr_pay 3 (by decide)
  have hv2 : ∃ v, Payment.pay exEnv.signVoucher (exPay exMgr 3) "p" 0 2 = (exPay (exPay exMgr 3) 2, .paid "c" v) := ⟨⟨⟨"c", 0, 1, 5⟩, ()⟩, rfl⟩
  obtain ⟨v2, hv2⟩ := hv2
  have := C110_standardV2_honest exEnv defaultProtocolOk exClient (exId 2) (exId 1) (Merkle.exId_proper 2) 1 (by decide) ⟨by decide, by decide⟩ ⟨by decide, by decide⟩
    ⟨by decide, by decide⟩ exRecord exClient_active exMgr _ _ rfl "c" "c" v v2 hv Gateway.exEnv Gateway.exEnv exHolder exHolder (exBehind 0) (exBehind 2) (by decide)
    (by decide) ⟨5, Gateway.exCore_credits5, by decide⟩ [Gateway.exSignedOffer] (by simp) true exHolder_offers
    (by
      intro o ho
      rw [List.mem_singleton.1 ho]
      decide +kernel)
    hv2 ⟨5, Gateway.exCore_credits5, by decide⟩ exHolder_byDigest
    (exOffers exGood_inRange exBad_inRange (fun o ho => .inl (List.mem_singleton.1 ho))) (exOffers exGood_whole exBad_whole (fun o ho => .inl (List.mem_singleton.1 ho)))
    exEnv_keys
  rw [this]
  have h1 : ([Gateway.exSignedOffer].take (1 : Int).toNat).map (fun o => Offer.subOffer Gateway.exEnv.H o (exId 2)) = [exGood] := rfl
  rw [h1]
  have h2 := exGood_verified
  simp [h2]

/-! ## DHT discovery -/

/-- The gateway is registered with a complete record, and the message is signed with its key. -/
def Vouches (E : Env Sig) (id : Id) (m : Msg) : Prop := ∃ r, E.gateway id = some r ∧ CompleteGateway r ∧ SignedBy E r m

theorem checkedKey_vouches {E : Env Sig} {id : Id} {m : Msg} (h : Vouches E id m) :
    ∃ k, checkedKey E.gateway validGateway id = .ok k ∧ (Message.verify E.P k m).2 = true := by
  obtain ⟨r, hr, hc, k, hk, hv⟩ := h
  refine ⟨k, ?_, Gateway.verify_snd.2 hv⟩
  unfold checkedKey
  rw [hr]
  simp only [(validGateway_iff r).2 hc, hk]

open Classical in
theorem dhtAnswers_returns {E : Env Sig} (hkeys : HaveKeys E.provider) : ∀ (l : List (Id × Msg)) (offers : Id → List SubOffer) (found : List (List Char × List SubOffer)),
    (l.map (·.1)).Nodup → (∀ e ∈ l, e.1.length = 32) →
    (∀ e ∈ l, Vouches E e.1 e.2 ∧ (∃ cid nonce fnd funded, decode gatewayDHTDiscoverResponse e.2 = .ok (cid, nonce, fnd, offers e.1, funded)) ∧
      ∀ o ∈ offers e.1, Whole o) →
    ∃ res, dhtAnswers E found l = .ok res ∧ (∀ e ∈ l, mget res (Ids.toStr e.1) = some ((offers e.1).filter (fun o => decide (Verified E o)))) ∧
      ∀ k, (∀ e ∈ l, k ≠ Ids.toStr e.1) → mget res k = mget found k := by
  intro l offers
  induction l with
  | nil => exact fun found _ _ _ => ⟨found, rfl, fun e he => (by cases he), fun k _ => rfl⟩
  | cons e l ih =>
    obtain ⟨id, m⟩ := e
    intro found hnd hlen h
    obtain ⟨hv, ⟨cid, nonce, fnd, funded, hd⟩, hw⟩ := h (id, m) (List.mem_cons_self ..)
    obtain ⟨k, hk, hkv⟩ := checkedKey_vouches hv
    rw [List.map_cons, List.nodup_cons] at hnd
    obtain ⟨res, h1, h2, h3⟩ := ih (mset found (Ids.toStr id) ((offers id).filter (fun o => decide (Verified E o)))) hnd.2
      (fun e he => hlen e (List.mem_cons_of_mem _ he)) (fun e he => h e (List.mem_cons_of_mem _ he))
    have hne : ∀ e ∈ l, Ids.toStr id ≠ Ids.toStr e.1 := by
      intro e he heq
      have := congrArg Ids.fromHex heq
      rw [Ids.fromHex_toStr (hlen (id, m) (List.mem_cons_self ..)), Ids.fromHex_toStr (hlen e (List.mem_cons_of_mem _ he))] at this
      exact hnd.1 (List.mem_map.2 ⟨e, he, (Option.some.inj this).symm⟩)
    refine ⟨res, ?_, fun e he => ?_, fun k hk => ?_⟩
    · unfold dhtAnswers
      rw [hk]
      dsimp only
      rw [if_pos hkv]
      simp only [hd]
      rw [checkOffers_eq (fun o ho => checkOffer_calm hkeys (hw o ho))]
      exact h1
    · rcases List.mem_cons.1 he with rfl | he
      · rw [h3 _ hne, mget_mset_same]
      · exact h2 e he
    · rw [h3 k (fun e he => hk e (List.mem_cons_of_mem _ he)), mget_mset_other _ _ (fun h => hk _ (List.mem_cons_self ..) h.symm)]

open Classical in
/-- **C110**, first version of the DHT discovery: if the gateway answers with the answers of different gateways, each registered with a
complete record and each answer signed with the registered key, the result has for each of them those of its offers which verify. -/
theorem C110_dht (E : Env Sig) (hpr : ProtocolOk E.pr) (c : Client Sig) (cid gw : Id) (hcid : cid.length = 32) (num : Int) (hnum : inI64 num)
    (hn0 : inI64 (E.nonce 0)) (httl : inI64 (E.now + c.settings.ttl)) (r : Record) (hr : ActiveRecord c gw r)
    (contacted : List (Id × Msg)) (missed : List Id) (x : List Char)
    (hsearch : ∀ m, m.type = (clientDHTDiscoverRequest).code →
      decode clientDHTDiscoverRequest m = .ok (some cid, E.nonce 0, E.now + c.settings.ttl, num, false, [], []) →
      ∃ a, Answered E 0 r m a ∧ decode clientDHTDiscoverResponse a = .ok (contacted.map (·.1), contacted.map (·.2), missed, E.nonce 0, false, x))
    (hnd : (contacted.map (·.1)).Nodup) (hlen : ∀ e ∈ contacted, e.1.length = 32) (offers : Id → List SubOffer)
    (hv : ∀ e ∈ contacted, Vouches E e.1 e.2)
    (hd : ∀ e ∈ contacted, ∃ cid nonce fnd funded, decode gatewayDHTDiscoverResponse e.2 = .ok (cid, nonce, fnd, offers e.1, funded))
    (hw : ∀ e ∈ contacted, ∀ o ∈ offers e.1, Whole o) (hkeys : HaveKeys E.provider) :
    ∃ res, (findDht E c cid gw num).2 = .ok res ∧
      (∀ e ∈ contacted, mget res (Ids.toStr e.1) = some ((offers e.1).filter (fun o => decide (Verified E o)))) ∧
      (∀ k, (∀ e ∈ contacted, k ≠ Ids.toStr e.1) → mget res k = none) ∧ payments (findDht E c cid gw num).1 = [] := by
  obtain ⟨m, hm, ht, -, -, hdm⟩ := C30_clientDHTDiscoverRequest E.pr hpr (some cid) (E.nonce 0) (E.now + c.settings.ttl) num false [] []
    ⟨cid, rfl, hcid⟩ hn0 httl hnum
  obtain ⟨a, ha, had⟩ := hsearch m ht (hdm m.signature).2
  have hreq : requestDht E 0 r cid (E.nonce 0) (E.now + c.settings.ttl) num [] [] = ([.asked r.netClient m], .ok contacted) := by
    unfold requestDht
    dsimp only
    rw [hm, ask_answered ha]
    simp only [Res.bind_ok, had, ne_eq, not_true_eq_false, if_false, Bool.false_eq_true, List.length_map]
    rw [List.zip_map', List.map_id']
  obtain ⟨res, h1, h2, h3⟩ := dhtAnswers_returns hkeys contacted offers [] hnd hlen (fun e he => ⟨hv e he, hd e he, hw e he⟩)
  refine ⟨res, ?_, h2, fun k hk => by rw [h3 k hk]; rfl, ?_⟩
  all_goals
    unfold findDht
    rw [show mget c.active (Ids.toStr gw) = some r from hr]
    dsimp only
    rw [hreq]
  · exact h1
  · rfl

/-- Two gateways, one of them with an offer that verifies. -/
def exDhtAnswer (l : List SubOffer) : Msg := exMsg gatewayDHTDiscoverResponse (some (exId 2), 7, true, l, [])
def exContacted : List (Id × Msg) := [(exId 1, exDhtAnswer [exBad, exGood])]
def exDht : Env Unit := exAnswers [exMsg clientDHTDiscoverResponse (exContacted.map (·.1), exContacted.map (·.2), [exId 3], 7, false, [])]

theorem exVouches {α : Type} {codec : Codec α} {a : α} (h : Delivers codec Message.defaultProtocol a) (l : List Msg) : Vouches (exAnswers l) (exId 1) (exMsg codec a) :=
  ⟨exRecord, by simp [exAnswers, exEnv], exRecord_complete, _, exRecord_key, exMsg_signed h⟩

theorem exDht_returns : ∃ res, (findDht exDht exClient (exId 2) (exId 1) 4).2 = .ok res ∧ mget res (Ids.toStr (exId 1)) = some [exGood] := by
  have hdel := C30_gatewayDHTDiscoverResponse Message.defaultProtocol defaultProtocolOk (some (exId 2)) 7 true [exBad, exGood] [] (exIdOk 2) ⟨by decide, by decide⟩
    (exOffers exGood_inRange exBad_inRange (by simp))
  have hdel2 := C30_clientDHTDiscoverResponse Message.defaultProtocol defaultProtocolOk (exContacted.map (·.1)) (exContacted.map (·.2)) [exId 3] 7 false []
    (by
      intro i hi
      simp only [exContacted, List.map_cons, List.map_nil, List.mem_singleton] at hi
      rw [hi]
      exact Merkle.exId_proper 1)
    (by
      intro i hi
      simp only [exContacted, List.map_cons, List.map_nil, List.mem_singleton] at hi
      rw [hi]
      exact Provider.exMsg_range ⟨by decide, by decide⟩ _)
    (by
      intro i hi
      rw [List.mem_singleton.1 hi]
      exact Merkle.exId_proper 3) ⟨by decide, by decide⟩
  obtain ⟨res, h1, h2, -⟩ := C110_dht exDht defaultProtocolOk exClient (exId 2) (exId 1) (Merkle.exId_proper 2) 4 ⟨by decide, by decide⟩ ⟨by decide, by decide⟩
    ⟨by decide, by decide⟩ exRecord exClient_active exContacted [exId 3] [] (fun m _ _ => ⟨_, exAnswers_answered hdel2 _ 0 m rfl, exMsg_decode hdel2⟩)
    (by simp [exContacted]) (fun e he => by rw [List.mem_singleton.1 he]; exact Merkle.exId_proper 1) (fun _ => [exBad, exGood])
    (fun e he => by rw [List.mem_singleton.1 he]; exact exVouches hdel _)
    (fun e he => by rw [List.mem_singleton.1 he]; exact ⟨_, _, _, _, exMsg_decode hdel⟩)
    (fun e he => exOffers exGood_whole exBad_whole (by simp)) exEnv_keys
  refine ⟨res, h1, ?_⟩
  rw [h2 _ (List.mem_singleton.2 rfl)]
  have h1 : Verified exDht exGood := exGood_verified
  have h2 : ¬ Verified exDht exBad := exBad_not
  simp [h1, h2]

/-- The digests listed by the gateways, when they are no more than the limit. -/
theorem collect_all {E : Env Sig} {limit : Int} : ∀ (l : List (Id × Msg)) (dss : List (List (List Char))) (added : Nat), l.length = dss.length →
    (∀ e ∈ l.zip dss, Vouches E e.1.1 e.1.2 ∧ ∃ cid nonce funded x, decode gatewayDHTDiscoverResponseV2 e.1.2 = .ok (cid, nonce, true, e.2, funded, false, x)) →
    (added + (dss.map List.length).sum : Int) < limit → collect E limit added l = .ok (some dss) := by
  intro l
  induction l with
  | nil =>
    intro dss added hl _ _
    cases dss with
    | nil => rfl
    | cons d dss => simp at hl
  | cons e l ih =>
    obtain ⟨id, m⟩ := e
    intro dss added hl h hlim
    cases dss with
    | nil => simp at hl
    | cons ds dss =>
      obtain ⟨hv, cid, nonce, funded, x, hd⟩ := h ((id, m), ds) (by simp)
      obtain ⟨k, hk, hkv⟩ := checkedKey_vouches hv
      simp only [List.map_cons, List.sum_cons] at hlim
      unfold collect
      rw [hk]
      dsimp only
      rw [if_pos hkv]
      simp only [hd, Bool.false_eq_true, if_false, Bool.not_true]
      rw [if_neg (by omega)]
      simp only [Res.bind_ok]
      rw [if_neg (by omega), ih dss (added + ds.length) (by simpa using hl) (fun e he => h e (by simp [he])) (by omega)]
      rfl

theorem gatherOffers_all : ∀ (answers : List ((Id × Msg) × List SubOffer)),
    (∀ e ∈ answers, e.2 ≠ [] ∧ ∃ cid nonce funded x, decode gatewayDHTDiscoverOfferResponse e.1.2 = .ok (cid, nonce, true, e.2, funded, false, x)) →
    gatherOffers (answers.map (fun e => (e.1.1, e.1.2))) = .ok (answers.map (fun e => (e.1.1, e.2)))
  | [], _ => rfl
  | e :: l, h => by
    obtain ⟨h1, cid, nonce, funded, x, h2⟩ := h e (List.mem_cons_self ..)
    have : 0 < e.2.length := List.length_pos_iff.2 h1
    simp only [List.map_cons, gatherOffers, h2, Bool.false_eq_true, if_false, gatherOffers_all l (fun e he => h e (List.mem_cons_of_mem _ he)), Res.bind_ok]
    simp [this]

/-- **C110**, second version of the DHT discovery, partial: with funds in the channel, a gateway that answers the search with the signed
digests of gateways that all have some, fewer than `limit` in total, and the request for the offers with answers that contain some, the
result has an entry for each gateway that answered, all of them with the offers of the last one, so it is right only if one gateway answered
(C60); it pays for the search and for the digests. -/
theorem C110_dhtV2_partial (E : Env Sig) (hpr : ProtocolOk E.pr) (c : Client Sig) (cid gw : Id) (hcid : cid.length = 32) (num : Int) (hnum : inI64 num)
    (limit : Int) (hn0 : inI64 (E.nonce 0)) (httl : inI64 (E.now + c.settings.ttl)) (r : Record) (hr : ActiveRecord c gw r)
    (p p1 p2 : Payment.Mgr Sig) (hp : c.payment = some p) (ch ch2 : Addr) (v v2 : Voucher Sig)
    (hpay : Payment.pay E.signVoucher p (String.ofList r.address) 0 (num * defaultSearchPrice) = (p1, .paid ch v))
    (contacted : List (Id × Msg)) (missed : List Id) (x : List Char)
    (hsearch : ∀ m, m.type = (clientDHTDiscoverRequestV2).code →
      decode clientDHTDiscoverRequestV2 m = .ok (some cid, E.nonce 0, E.now + c.settings.ttl, num, false, ch.toList, E.showVoucher v) →
      ∃ a, Answered E 0 r m a ∧ decode clientDHTDiscoverResponseV2 a = .ok (contacted.map (·.1), contacted.map (·.2), missed, E.nonce 0, false, x))
    (hlen : IdsOk (contacted.map (·.1))) (dss : List (List (List Char))) (hl : contacted.length = dss.length)
    (hv : ∀ e ∈ contacted.zip dss, Vouches E e.1.1 e.1.2 ∧
      ∃ cid nonce funded x, decode gatewayDHTDiscoverResponseV2 e.1.2 = .ok (cid, nonce, true, e.2, funded, false, x))
    (hlim : ((dss.map List.length).sum : Int) < limit)
    (hpay2 : Payment.pay E.signVoucher p1 (String.ofList r.address) 0 (((dss.map List.length).sum : Nat) * c.settings.offerPrice) = (p2, .paid ch2 v2))
    (answers : List ((Id × Msg) × List SubOffer)) (cid' : Option Id) (nonce' : Int) (x2 : List Char)
    (hoffer : ∀ m, m.type = (clientDHTDiscoverOfferRequest).code → decode clientDHTDiscoverOfferRequest m =
        .ok (some cid, E.nonce 0, dss, contacted.map (·.1), ch2.toList, E.showVoucher v2) →
      ∃ a, Answered E 2 r m a ∧ decode clientDHTDiscoverOfferResponse a = .ok (cid', nonce', answers.map (·.1.1), answers.map (·.1.2), false, x2))
    (ho : ∀ e ∈ answers, e.2 ≠ [] ∧ ∃ cid nonce funded x, decode gatewayDHTDiscoverOfferResponse e.1.2 = .ok (cid, nonce, true, e.2, funded, false, x)) :
    (∃ res, (findDhtV2 E c cid gw num limit).2.2 = .ok res ∧
      ∀ k, mget res k = if k ∈ answers.map (fun e => Ids.toStr e.1.1) then some ((answers.map (·.2)).getLastD []) else none) ∧
      payments (findDhtV2 E c cid gw num limit).2.1 = [(String.ofList r.address, num * defaultSearchPrice),
        (String.ofList r.address, ((dss.map List.length).sum : Nat) * c.settings.offerPrice)] ∧
      (findDhtV2 E c cid gw num limit).1 = { c with payment := some p2 } := by
  obtain ⟨m, hm, ht, -, -, hd⟩ := C30_clientDHTDiscoverRequestV2 E.pr hpr (some cid) (E.nonce 0) (E.now + c.settings.ttl) num false ch.toList (E.showVoucher v)
    ⟨cid, rfl, hcid⟩ hn0 httl hnum
  obtain ⟨a, ha, had⟩ := hsearch m ht (hd m.signature).2
  obtain ⟨m2, hm2, ht2, -, -, hd2⟩ := C30_clientDHTDiscoverOfferRequest E.pr hpr (some cid) (E.nonce 0) dss (contacted.map (·.1)) ch2.toList (E.showVoucher v2)
    ⟨cid, rfl, hcid⟩ hn0 hlen
  obtain ⟨a2, ha2, had2⟩ := hoffer m2 ht2 (hd2 m2.signature).2
  have hreq : requestDhtV2 E 0 r cid (E.nonce 0) (E.now + c.settings.ttl) num ch.toList (E.showVoucher v) = ([.asked r.netClient m], .ok (contacted, none)) := by
    unfold requestDhtV2
    dsimp only
    rw [hm, ask_answered ha]
    simp only [Res.bind_ok, had, ne_eq, not_true_eq_false, if_false, Bool.false_eq_true, List.length_map]
    rw [List.zip_map', List.map_id']
  have hreq2 : requestDhtOffer E 2 r (contacted.map (·.1)) cid (E.nonce 0) dss ch2.toList (E.showVoucher v2) =
      ([.asked r.netClient m2], .ok (answers.map (fun e => (e.1.1, e.2)))) := by
    unfold requestDhtOffer
    dsimp only
    rw [hm2, ask_answered ha2]
    simp only [Res.bind_ok, had2, List.length_map, ne_eq, not_true_eq_false, if_false, Bool.false_eq_true]
    rw [List.zip_map']
    rw [gatherOffers_all answers ho]
  have hs : searchDhtV2 E { c with payment := some p1 } r cid num ch v = ({ c with payment := some p1 }, [.asked r.netClient m], .ok contacted) := by
    unfold searchDhtV2
    dsimp only
    rw [hreq]
  have hf : fetchDhtV2 E { c with payment := some p1 } r cid (contacted.map (·.1)) dss = ({ c with payment := some p2 },
      [.paid (String.ofList r.address) (((dss.map List.length).sum : Nat) * c.settings.offerPrice) v2, .asked r.netClient m2],
      .ok (offersMap (answers.map (fun e => (e.1.1, e.2))))) := by
    unfold fetchDhtV2
    rw [show paymentMgr E { c with payment := some p1 } = { c with payment := some p1 } from rfl, payFor_funded (p := p1) rfl hpay2]
    dsimp only
    rw [hreq2]
    rfl
  have hpm : paymentMgr E c = c := by
    unfold paymentMgr
    rw [hp]
  unfold findDhtV2
  rw [show mget c.active (Ids.toStr gw) = some r from hr]
  dsimp only
  rw [hpm, payFor_funded hp hpay]
  dsimp only
  rw [hs]
  dsimp only
  rw [collect_all contacted dss 0 hl hv (by omega)]
  dsimp only
  rw [hf]
  refine ⟨⟨_, rfl, fun k => ?_⟩, rfl, rfl⟩
  rw [offersMap_get]
  simp only [List.map_map, Function.comp_def]

/-- One gateway with two digests, and two answers, one with an offer that verifies and one with two that do not. -/
def exV2Answer : Msg := exMsg gatewayDHTDiscoverResponseV2 (some (exId 2), 7, true, [['d'], ['e']], [], false, [])
def exOfferAnswer (l : List SubOffer) : Msg := exMsg gatewayDHTDiscoverOfferResponse (some (exId 2), 7, true, l, [], false, [])
def exOfferAnswers : List ((Id × Msg) × List SubOffer) :=
  [((exId 1, exOfferAnswer [exGood]), [exGood]), ((exId 3, exOfferAnswer [exBad, exBad]), [exBad, exBad])]
def exDhtV2 : Env Unit := exAnswers [exMsg clientDHTDiscoverResponseV2 ([exId 1], [exV2Answer], [exId 3], 7, false, []),
  exV2Answer, exMsg clientDHTDiscoverOfferResponse (some (exId 2), 7, exOfferAnswers.map (·.1.1), exOfferAnswers.map (·.1.2), false, [])]

theorem exDhtV2_returns : (∃ res, (findDhtV2 exDhtV2 exClient (exId 2) (exId 1) 1 3).2.2 = .ok res ∧ mget res (Ids.toStr (exId 1)) = some [exBad, exBad] ∧
      mget res (Ids.toStr (exId 3)) = some [exBad, exBad]) ∧
    payments (findDhtV2 exDhtV2 exClient (exId 2) (exId 1) 1 3).2.1 = [("p", 1000000000000000), ("p", 4)] := by
  have hids : ∀ n, IdsOk [exId n] := fun n i hi => by rw [List.mem_singleton.1 hi]; exact Merkle.exId_proper n
  have hdel := C30_gatewayDHTDiscoverResponseV2 Message.defaultProtocol defaultProtocolOk (some (exId 2)) 7 true [['d'], ['e']] [] false [] (exIdOk 2) ⟨by decide, by decide⟩
  have hdel2 := fun l hl => C30_gatewayDHTDiscoverOfferResponse Message.defaultProtocol defaultProtocolOk (some (exId 2)) 7 true l [] false [] (exIdOk 2)
    ⟨by decide, by decide⟩ (exOffers exGood_inRange exBad_inRange hl)
  have hans : ∀ e ∈ exOfferAnswers, e.1.1.length = 32 ∧ (∀ o ∈ e.2, o = exGood ∨ o = exBad) ∧ e.2 ≠ [] ∧ e.1.2 = exOfferAnswer e.2 := by
    intro e he
    simp only [exOfferAnswers, List.mem_cons, List.not_mem_nil, or_false] at he
    rcases he with he | he <;> rw [he]
    · exact ⟨Merkle.exId_proper 1, by simp, by simp, rfl⟩
    · exact ⟨Merkle.exId_proper 3, by simp, by simp, rfl⟩
  have hdel3 := C30_clientDHTDiscoverResponseV2 Message.defaultProtocol defaultProtocolOk [exId 1] [exV2Answer] [exId 3] 7 false []
    (hids 1) (fun m hm => by rw [List.mem_singleton.1 hm]; exact Provider.exMsg_range ⟨by decide, by decide⟩ _) (hids 3) ⟨by decide, by decide⟩
  have hdel4 := C30_clientDHTDiscoverOfferResponse Message.defaultProtocol defaultProtocolOk (some (exId 2)) 7 (exOfferAnswers.map (·.1.1)) (exOfferAnswers.map (·.1.2)) false []
    (exIdOk 2) ⟨by decide, by decide⟩
    (fun i hi => by
      obtain ⟨e, he, rfl⟩ := List.mem_map.1 hi
      exact (hans e he).1)
    (fun m hm => by
      obtain ⟨e, he, rfl⟩ := List.mem_map.1 hm
      rw [(hans e he).2.2.2]
      exact Provider.exMsg_range ⟨by decide, by decide⟩ _)
  obtain ⟨v, hv⟩ := exMgr_pay (1 * defaultSearchPrice) (by decide)
  have hv2 : ∃ v, Payment.pay exEnv.signVoucher (exPay exMgr (1 * defaultSearchPrice)) "p" 0 4 = (exPay (exPay exMgr (1 * defaultSearchPrice)) 4, .paid "c" v) :=
    ⟨⟨⟨"c", 0, 1, 1000000000000004⟩, ()⟩, rfl⟩
  obtain ⟨v2, hv2⟩ := hv2
  have := C110_dhtV2_partial exDhtV2 defaultProtocolOk exClient (exId 2) (exId 1) (Merkle.exId_proper 2) 1 ⟨by decide, by decide⟩ 3 ⟨by decide, by decide⟩
    ⟨by decide, by decide⟩ exRecord exClient_active exMgr _ _ rfl "c" "c" v v2 hv [(exId 1, exV2Answer)] [exId 3] []
    (fun m _ _ => ⟨_, exAnswers_answered hdel3 _ 0 m rfl, exMsg_decode hdel3⟩) (hids 1) [[['d'], ['e']]] rfl
    (fun e he => by rw [List.mem_singleton.1 he]; exact ⟨exVouches hdel _, _, _, _, _, exMsg_decode hdel⟩) (by decide) hv2 exOfferAnswers (some (exId 2)) 7 []
    (fun m _ _ => ⟨_, exAnswers_answered hdel4 _ 2 m rfl, exMsg_decode hdel4⟩)
    (fun e he => by
      obtain ⟨-, h1, h2, h3⟩ := hans e he
      rw [h3]
      exact ⟨h2, _, _, _, _, exMsg_decode (hdel2 e.2 h1)⟩)
  obtain ⟨⟨res, h1, h2⟩, h3, -⟩ := this
  refine ⟨⟨res, h1, ?_, ?_⟩, h3⟩
  · rw [h2, if_pos (by simp [exOfferAnswers])]
    rfl
  · rw [h2, if_pos (by simp [exOfferAnswers])]
    rfl

end FcRetrieval.Client
