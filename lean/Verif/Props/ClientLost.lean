import Verif.Props.ClientReturn
import Verif.Spec.ClientGateway
/-!
# C110: paid DHT discoveries which return nothing
-/
set_option linter.unusedSimpArgs false

namespace FcRetrieval.Client
open FcRetrieval.Ids (Id)
open FcRetrieval.Merkle (exId)
open FcRetrieval.Message (Msg)
open FcRetrieval.Offer (SubOffer CidOffer)
open FcRetrieval.Payment (Addr Voucher)
open FcRetrieval.Register (Record)
open FcRetrieval.Wire (Codec encode decode)
open FcRetrieval.Codecs
open FcRetrieval.Gateway (res_ok_of_bind)
open FcRetrieval.Provider (exMsg exMsg_decode exMsg_signed)

variable {Sig S : Type}

attribute [local irreducible] Provider.exMsg

/-- One gateway that answers it has nothing ends the collection. -/
theorem collect_none {E : Env Sig} {limit : Int} : ∀ (l : List (Id × Msg)) (dss : List (List (List Char))) (added : Nat) (id : Id) (m : Msg) (rest : List (Id × Msg)),
    l.length = dss.length →
    (∀ e ∈ l.zip dss, Vouches E e.1.1 e.1.2 ∧ ∃ cid nonce funded x, decode gatewayDHTDiscoverResponseV2 e.1.2 = .ok (cid, nonce, true, e.2, funded, false, x)) →
    (added + (dss.map List.length).sum : Int) < limit → Vouches E id m →
    (∃ cid nonce ds funded x, decode gatewayDHTDiscoverResponseV2 m = .ok (cid, nonce, false, ds, funded, false, x)) →
    collect E limit added (l ++ (id, m) :: rest) = .ok none := by
  intro l
  induction l with
  | nil =>
    intro dss added id m rest hl _ _ hv hd
    obtain ⟨cid, nonce, ds, funded, x, hd⟩ := hd
    obtain ⟨k, hk, hkv⟩ := checkedKey_vouches hv
    rw [List.nil_append]
    unfold collect
    rw [hk]
    dsimp only
    rw [if_pos hkv]
    simp only [hd, Bool.false_eq_true, if_false, Bool.not_false, if_true]
  | cons e l ih =>
    obtain ⟨id, m⟩ := e
    intro dss added id' m' rest hl h hlim hv' hd'
    cases dss with
    | nil => simp at hl
    | cons ds dss =>
      obtain ⟨hv, cid, nonce, funded, x, hd⟩ := h ((id, m), ds) (by simp)
      obtain ⟨k, hk, hkv⟩ := checkedKey_vouches hv
      simp only [List.map_cons, List.sum_cons] at hlim
      rw [List.cons_append]
      unfold collect
      rw [hk]
      dsimp only
      rw [if_pos hkv]
      simp only [hd, Bool.false_eq_true, if_false, Bool.not_true]
      rw [if_neg (by omega)]
      simp only [Res.bind_ok]
      rw [if_neg (by omega), ih dss (added + ds.length) id' m' rest (by simpa using hl) (fun e he => h e (by simp [he])) (by omega) hv' hd']
      rfl

/-- **C110 is false** of the second version of the DHT discovery: if one of the gateways contacted has nothing for the CID, the result is empty,
whatever offers the others have, unless those before it already reach the limit.  The search has been paid. -/
theorem C110_dhtV2_empty_refuted (E : Env Sig) (hpr : ProtocolOk E.pr) (c : Client Sig) (cid gw : Id) (hcid : cid.length = 32) (num : Int) (hnum : inI64 num)
    (limit : Int) (hn0 : inI64 (E.nonce 0)) (httl : inI64 (E.now + c.settings.ttl)) (r : Record) (hr : ActiveRecord c gw r)
    (p p1 : Payment.Mgr Sig) (hp : c.payment = some p) (ch : Addr) (v : Voucher Sig)
    (hpay : Payment.pay E.signVoucher p (String.ofList r.address) 0 (num * defaultSearchPrice) = (p1, .paid ch v))
    (before : List (Id × Msg)) (id : Id) (answer : Msg) (after : List (Id × Msg)) (missed : List Id) (x : List Char)
    (hsearch : ∀ m, m.type = (clientDHTDiscoverRequestV2).code →
      decode clientDHTDiscoverRequestV2 m = .ok (some cid, E.nonce 0, E.now + c.settings.ttl, num, false, ch.toList, E.showVoucher v) →
      ∃ a, Answered E 0 r m a ∧ decode clientDHTDiscoverResponseV2 a =
        .ok ((before ++ (id, answer) :: after).map (·.1), (before ++ (id, answer) :: after).map (·.2), missed, E.nonce 0, false, x))
    (dss : List (List (List Char))) (hl : before.length = dss.length)
    (hv : ∀ e ∈ before.zip dss, Vouches E e.1.1 e.1.2 ∧
      ∃ cid nonce funded x, decode gatewayDHTDiscoverResponseV2 e.1.2 = .ok (cid, nonce, true, e.2, funded, false, x))
    (hlim : ((dss.map List.length).sum : Int) < limit) (hv' : Vouches E id answer)
    (hd : ∃ cid nonce ds funded x, decode gatewayDHTDiscoverResponseV2 answer = .ok (cid, nonce, false, ds, funded, false, x)) :
    (findDhtV2 E c cid gw num limit).2.2 = .ok [] ∧ payments (findDhtV2 E c cid gw num limit).2.1 = [(String.ofList r.address, num * defaultSearchPrice)] := by
  obtain ⟨m, hm, ht, -, -, hdm⟩ := C30_clientDHTDiscoverRequestV2 E.pr hpr (some cid) (E.nonce 0) (E.now + c.settings.ttl) num false ch.toList (E.showVoucher v)
    ⟨cid, rfl, hcid⟩ hn0 httl hnum
  obtain ⟨a, ha, had⟩ := hsearch m ht (hdm m.signature).2
  have hreq : requestDhtV2 E 0 r cid (E.nonce 0) (E.now + c.settings.ttl) num ch.toList (E.showVoucher v) =
      ([.asked r.netClient m], .ok (before ++ (id, answer) :: after, none)) := by
    unfold requestDhtV2
    dsimp only
    rw [hm, ask_answered ha]
    simp only [Res.bind_ok, had, ne_eq, not_true_eq_false, if_false, Bool.false_eq_true, List.length_map]
    rw [List.zip_map', List.map_id']
  have hs : searchDhtV2 E { c with payment := some p1 } r cid num ch v = ({ c with payment := some p1 }, [.asked r.netClient m], .ok (before ++ (id, answer) :: after)) := by
    unfold searchDhtV2
    dsimp only
    rw [hreq]
  have hpm : paymentMgr E c = c := by
    unfold paymentMgr
    rw [hp]
  unfold findDhtV2
  rw [show mget c.active (Ids.toStr gw) = some r from hr]
  dsimp only
  rw [hpm, payFor_funded hp hpay]
  dsimp only
  rw [hs]
  dsimp only
  rw [collect_none before dss 0 id answer after hl hv (by omega) hv' hd]
  exact ⟨rfl, rfl⟩

/-- Nothing is sent back for a request which lists fewer digests than gateways. -/
theorem dhtOfferLoop_short (G : Gateway.Env S) (cid : Option Id) (nonce : Int) : ∀ (ids : List Id) (dss : List (List (List Char))) (g : Gateway.Core S) (k : Gateway.Contacts),
    dss.length < ids.length → (Gateway.dhtOfferLoop G cid nonce g ids dss k).2.2 = none ∧ reply (Gateway.dhtOfferLoop G cid nonce g ids dss k).2.1 = none
  | [], _, g, k, h => by simp at h
  | _ :: _, [], g, k, _ => ⟨rfl, rfl⟩
  | id :: ids, ds :: dss, g, k, h => by
    unfold Gateway.dhtOfferLoop
    split
    · exact ⟨rfl, rfl⟩
    · rename_i r _
      split
      · exact ⟨rfl, rfl⟩
      · rename_i g' pay _
        dsimp only
        have hsp : ∀ l : List (Gateway.Out S), reply ((pay.map (fun p => Gateway.Out.paid (String.ofList r.address) p.2)).toList ++ l) = reply l := by
          intro l
          cases pay <;> rfl
        generalize hq : Gateway.request G g' id _ = q
        have hq1 : ∀ l : List (Gateway.Out S), reply (q.1 ++ l) = reply l := by
          intro l
          rw [← hq]
          unfold Gateway.request
          split
          · split <;> rfl
          · rfl
          · rfl
        obtain ⟨out, resp⟩ := q
        split
        · rename_i heq
          cases heq
          refine ⟨rfl, ?_⟩
          dsimp only
          rw [List.append_assoc, hsp, hq1]
          rfl
        · rename_i heq
          cases heq
          obtain ⟨h1, h2⟩ := dhtOfferLoop_short G cid nonce ids dss g' (k.add id resp) (by simpa using h)
          refine ⟨h1, ?_⟩
          dsimp only
          rw [List.append_assoc, hsp, hq1]
          exact h2

theorem dhtOffer_short {G : Gateway.Env S} {g : Gateway.Core S} {m : Msg} {cid : Option Id} {nonce : Int} {dss : List (List (List Char))} {ids : List Id} {ch v : List Char}
    (hd : decode clientDHTDiscoverOfferRequest m = .ok (cid, nonce, dss, ids, ch, v)) (h : dss.length < ids.length) :
    reply (Gateway.serve G g .dhtOffer m).2 = none := by
  show reply (Gateway.dhtOffer G g m).2 = none
  unfold Gateway.dhtOffer
  rw [hd]
  dsimp only
  split
  · rfl
  · rfl
  · rename_i c1 amount _
    obtain ⟨h1, h2⟩ := dhtOfferLoop_short G cid nonce ids dss c1 ⟨[], [], []⟩ h
    rcases hl : Gateway.dhtOfferLoop G cid nonce c1 ids dss ⟨[], [], []⟩ with ⟨c2, out, res⟩
    rw [hl] at h1 h2
    cases h1
    dsimp only at h2 ⊢
    split
    · rfl
    · exact h2

/-- **C110 is false** of the second version of the DHT discovery: if the first of several gateways contacted lists as many digests as the limit,
the client pays for them and asks for them with a request that has one list of digests for several gateways.  Every gateway that runs the
code of `Model/Gateway` fails to answer it, and the call returns an error. -/
theorem C110_dhtV2_limit_refuted (E : Env Sig) (hpr : ProtocolOk E.pr) (c : Client Sig) (cid gw : Id) (hcid : cid.length = 32) (num : Int) (hnum : inI64 num)
    (limit : Int) (hlimit : 0 ≤ limit) (hn0 : inI64 (E.nonce 0)) (httl : inI64 (E.now + c.settings.ttl)) (r : Record) (hr : ActiveRecord c gw r)
    (p p1 p2 : Payment.Mgr Sig) (hp : c.payment = some p) (ch ch2 : Addr) (v v2 : Voucher Sig)
    (hpay : Payment.pay E.signVoucher p (String.ofList r.address) 0 (num * defaultSearchPrice) = (p1, .paid ch v))
    (id : Id) (answer : Msg) (others : List (Id × Msg)) (hothers : others ≠ []) (missed : List Id) (x : List Char)
    (hsearch : ∀ m, m.type = (clientDHTDiscoverRequestV2).code →
      decode clientDHTDiscoverRequestV2 m = .ok (some cid, E.nonce 0, E.now + c.settings.ttl, num, false, ch.toList, E.showVoucher v) →
      ∃ a, Answered E 0 r m a ∧ decode clientDHTDiscoverResponseV2 a =
        .ok (((id, answer) :: others).map (·.1), ((id, answer) :: others).map (·.2), missed, E.nonce 0, false, x))
    (hlen : IdsOk (((id, answer) :: others).map (·.1))) (hv : Vouches E id answer) (digests : List (List Char)) (hmany : limit ≤ digests.length)
    (hd : ∃ cid nonce funded x, decode gatewayDHTDiscoverResponseV2 answer = .ok (cid, nonce, true, digests, funded, false, x))
    (hpay2 : Payment.pay E.signVoucher p1 (String.ofList r.address) 0 (limit * c.settings.offerPrice) = (p2, .paid ch2 v2))
    (G : Gateway.Env S) (g : Gateway.Core S) (hb : Behind E r 2 G g) :
    (findDhtV2 E c cid gw num limit).2.2 = .err ∧ payments (findDhtV2 E c cid gw num limit).2.1 =
      [(String.ofList r.address, num * defaultSearchPrice), (String.ofList r.address, limit * c.settings.offerPrice)] := by
  obtain ⟨m, hm, ht, -, -, hdm⟩ := C30_clientDHTDiscoverRequestV2 E.pr hpr (some cid) (E.nonce 0) (E.now + c.settings.ttl) num false ch.toList (E.showVoucher v)
    ⟨cid, rfl, hcid⟩ hn0 httl hnum
  obtain ⟨a, ha, had⟩ := hsearch m ht (hdm m.signature).2
  have hreq : requestDhtV2 E 0 r cid (E.nonce 0) (E.now + c.settings.ttl) num ch.toList (E.showVoucher v) =
      ([.asked r.netClient m], .ok ((id, answer) :: others, none)) := by
    unfold requestDhtV2
    dsimp only
    rw [hm, ask_answered ha]
    simp only [Res.bind_ok, had, ne_eq, not_true_eq_false, if_false, Bool.false_eq_true, List.length_map]
    rw [List.zip_map', List.map_id']
  have hs : searchDhtV2 E { c with payment := some p1 } r cid num ch v = ({ c with payment := some p1 }, [.asked r.netClient m], .ok ((id, answer) :: others)) := by
    unfold searchDhtV2
    dsimp only
    rw [hreq]
  have hpm : paymentMgr E c = c := by
    unfold paymentMgr
    rw [hp]
  have hcol : collect E limit 0 ((id, answer) :: others) = .ok (some [digests.take limit.toNat]) := by
    obtain ⟨cid', nonce', funded', x', hd⟩ := hd
    obtain ⟨k, hk, hkv⟩ := checkedKey_vouches hv
    unfold collect
    rw [hk]
    dsimp only
    rw [if_pos hkv]
    simp only [hd, Bool.false_eq_true, if_false, Bool.not_true]
    have hlen' : ((digests.take limit.toNat).length : Int) = limit := by
      rw [List.length_take]
      omega
    split
    · unfold upTo
      rw [if_neg (by omega)]
      simp only [Int.natCast_zero, Int.sub_zero, Res.bind_ok]
      rw [if_pos (by omega)]
    · rename_i hle
      have : digests.take limit.toNat = digests := List.take_of_length_le (by omega)
      rw [this] at hlen' ⊢
      simp only [Res.bind_ok]
      rw [if_pos (by omega)]
  have hsum : (([digests.take limit.toNat].map List.length).sum : Int) = limit := by
    simp only [List.map_cons, List.map_nil, List.sum_cons, List.sum_nil, List.length_take]
    omega
  obtain ⟨m2, hm2, ht2, -, -, hd2⟩ := C30_clientDHTDiscoverOfferRequest E.pr hpr (some cid) (E.nonce 0) [digests.take limit.toNat]
    (((id, answer) :: others).map (·.1)) ch2.toList (E.showVoucher v2) ⟨cid, rfl, hcid⟩ hn0 hlen
  have hnone : E.exchange 2 r.netClient m2 = none := by
    rw [hb.served, show clientKind m2.type = some .dhtOffer by rw [ht2]; rfl, Option.bind_some]
    refine dhtOffer_short (hd2 m2.signature).2 ?_
    have := List.length_pos_iff.2 hothers
    simp
    omega
  have hreq2 : requestDhtOffer E 2 r (((id, answer) :: others).map (·.1)) cid (E.nonce 0) [digests.take limit.toNat] ch2.toList (E.showVoucher v2) =
      ([.asked r.netClient m2], .err) := by
    unfold requestDhtOffer
    dsimp only
    rw [hm2]
    unfold ask
    dsimp only
    rw [hnone]
    rfl
  have hf : fetchDhtV2 E { c with payment := some p1 } r cid (((id, answer) :: others).map (·.1)) [digests.take limit.toNat] = ({ c with payment := some p2 },
      [.paid (String.ofList r.address) (limit * c.settings.offerPrice) v2, .asked r.netClient m2], .err) := by
    unfold fetchDhtV2
    rw [hsum, show paymentMgr E { c with payment := some p1 } = { c with payment := some p1 } from rfl, payFor_funded (p := p1) rfl hpay2]
    dsimp only
    rw [hreq2]
    rfl
  unfold findDhtV2
  rw [show mget c.active (Ids.toStr gw) = some r from hr]
  dsimp only
  rw [hpm, payFor_funded hp hpay]
  dsimp only
  rw [hs]
  dsimp only
  rw [hcol]
  dsimp only
  rw [hf]
  exact ⟨rfl, rfl⟩

/-- Two gateways contacted: one with two digests, the other with nothing. -/
def exNothing : Msg := exMsg gatewayDHTDiscoverResponseV2 (some (exId 2), 7, false, [], [], false, [])
def exEmpty : Env Unit := exAnswers [exMsg clientDHTDiscoverResponseV2 ([exId 1, exId 1], [exV2Answer, exNothing], [], 7, false, [])]

theorem exId_pair : IdsOk [exId 1, exId 1] := fun i hi => by
  simp only [List.mem_cons, List.not_mem_nil, or_false, or_self] at hi
  rw [hi]
  exact Merkle.exId_proper 1

example : (findDhtV2 exEmpty exClient (exId 2) (exId 1) 1 3).2.2 = .ok [] := by
  have hdel := C30_gatewayDHTDiscoverResponseV2 Message.defaultProtocol defaultProtocolOk (some (exId 2)) 7 true [['d'], ['e']] [] false [] (exIdOk 2) ⟨by decide, by decide⟩
  have hdel2 := C30_gatewayDHTDiscoverResponseV2 Message.defaultProtocol defaultProtocolOk (some (exId 2)) 7 false [] [] false [] (exIdOk 2) ⟨by decide, by decide⟩
  have hdel3 := C30_clientDHTDiscoverResponseV2 Message.defaultProtocol defaultProtocolOk [exId 1, exId 1] [exV2Answer, exNothing] [] 7 false []
    exId_pair (fun m hm => by
      simp only [List.mem_cons, List.not_mem_nil, or_false] at hm
      rcases hm with hm | hm <;> (rw [hm]; exact Provider.exMsg_range ⟨by decide, by decide⟩ _)) (fun i hi => by cases hi) ⟨by decide, by decide⟩
  obtain ⟨v, hv⟩ := exMgr_pay (1 * defaultSearchPrice) (by decide)
  exact (C110_dhtV2_empty_refuted exEmpty defaultProtocolOk exClient (exId 2) (exId 1) (Merkle.exId_proper 2) 1 ⟨by decide, by decide⟩ 3 ⟨by decide, by decide⟩
    ⟨by decide, by decide⟩ exRecord exClient_active exMgr _ rfl "c" v hv [(exId 1, exV2Answer)] (exId 1) exNothing [] [] []
    (fun m _ _ => ⟨_, exAnswers_answered hdel3 _ 0 m rfl, exMsg_decode hdel3⟩) [[['d'], ['e']]] rfl
    (fun e he => by rw [List.mem_singleton.1 he]; exact ⟨exVouches hdel _, _, _, _, _, exMsg_decode hdel⟩) (by decide) (exVouches hdel2 _)
    ⟨_, _, _, _, _, exMsg_decode hdel2⟩).1

/-- The same two with the limit 2, and the gateway of `Model/Gateway` behind the request for the offers. -/
def exShort : Env Unit :=
  { exEnv with exchange := fun n a m => if n = 2 then exEnv.exchange n a m else
      [exMsg clientDHTDiscoverResponseV2 ([exId 1, exId 1], [exV2Answer, exNothing], [], 7, false, [])][n]? }

theorem exShort_behind : Behind exShort exRecord 2 Gateway.exEnv exHolder :=
  ⟨fun _ => rfl, rfl, Crypto.toy_correct, rfl, Merkle.exId_proper 1, Offer.exKey_private, Gateway.exCore_signs, ⟨_, exRecord_key, rfl, rfl⟩, defaultProtocolOk⟩

example : (findDhtV2 exShort exClient (exId 2) (exId 1) 1 2).2.2 = .err ∧
    payments (findDhtV2 exShort exClient (exId 2) (exId 1) 1 2).2.1 = [("p", 1 * defaultSearchPrice), ("p", 2 * 2)] := by
  have hdel := C30_gatewayDHTDiscoverResponseV2 Message.defaultProtocol defaultProtocolOk (some (exId 2)) 7 true [['d'], ['e']] [] false [] (exIdOk 2) ⟨by decide, by decide⟩
  have hdel3 := C30_clientDHTDiscoverResponseV2 Message.defaultProtocol defaultProtocolOk [exId 1, exId 1] [exV2Answer, exNothing] [] 7 false []
    exId_pair (fun m hm => by
      simp only [List.mem_cons, List.not_mem_nil, or_false] at hm
      rcases hm with hm | hm <;> (rw [hm]; exact Provider.exMsg_range ⟨by decide, by decide⟩ _)) (fun i hi => by cases hi) ⟨by decide, by decide⟩
  obtain ⟨v, hv⟩ := exMgr_pay (1 * defaultSearchPrice) (by decide)
  have hv2 : ∃ v, Payment.pay exEnv.signVoucher (exPay exMgr (1 * defaultSearchPrice)) "p" 0 (2 * 2) = (exPay (exPay exMgr (1 * defaultSearchPrice)) (2 * 2), .paid "c" v) :=
    ⟨⟨⟨"c", 0, 1, 1000000000000004⟩, ()⟩, rfl⟩
  obtain ⟨v2, hv2⟩ := hv2
  exact C110_dhtV2_limit_refuted exShort defaultProtocolOk exClient (exId 2) (exId 1) (Merkle.exId_proper 2) 1 ⟨by decide, by decide⟩ 2 (by decide) ⟨by decide, by decide⟩
    ⟨by decide, by decide⟩ exRecord exClient_active exMgr _ _ rfl "c" "c" v v2 hv (exId 1) exV2Answer [(exId 1, exNothing)] (by simp) [] []
    (fun m _ _ => ⟨_, ⟨rfl, _, exRecord_key, exMsg_signed hdel3⟩, exMsg_decode hdel3⟩) exId_pair (exVouches hdel []) [['d'], ['e']] (by decide)
    ⟨_, _, _, _, exMsg_decode hdel⟩ hv2 Gateway.exEnv exHolder exShort_behind

end FcRetrieval.Client
