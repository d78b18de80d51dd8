import Verif.Props.GatewayRelay
/-!
# C76, C102: what a gateway spends
-/
set_option linter.unusedSimpArgs false

namespace FcRetrieval.Gateway
open FcRetrieval.Ids (Id)
open FcRetrieval.Merkle (Hash exId exId_proper)
open FcRetrieval.Message (Msg Protocol)
open FcRetrieval.Wire
open FcRetrieval.Codecs
open FcRetrieval.Register (Record)
open FcRetrieval.Payment (RecvOut PayOp payRun payStep Addr Voucher)

variable {Sig : Type}

theorem spent_append (a b : List (Out Sig)) : spent (a ++ b) = spent a ++ spent b := by
  induction a with
  | nil => rfl
  | cons x a ih => cases x <;> simp [spent, ih]

theorem issued_append (a b : List (Payment.PayEvent Sig)) : issued (a ++ b) = issued a ++ issued b := by
  induction a with
  | nil => rfl
  | cons x a ih => cases x <;> simp [issued, ih]

theorem mem_spent {o : List (Out Sig)} {r : Addr} {v : Voucher Sig} : (r, v) ∈ spent o ↔ Out.paid r v ∈ o := by
  induction o with
  | nil => simp [spent]
  | cons x o ih => cases x <;> simp [spent, ih]

theorem payRun_append (sign : Payment.VBody → Option Sig) (a b : List PayOp) (m : Payment.Mgr Sig) :
    payRun sign m (a ++ b) = ((payRun sign (payRun sign m a).1 b).1, (payRun sign m a).2 ++ (payRun sign (payRun sign m a).1 b).2) := by
  induction a generalizing m with
  | nil => rfl
  | cons x a ih => simp [payRun, ih]

/-- Nothing is spent by asking. -/
theorem request_spent {E : Env Sig} {c : Core Sig} {id : Id} {q r : Res Msg} {out : List (Out Sig)} (h : request E c id q = (out, r)) : spent out = [] := by
  unfold request at h
  split at h
  · split at h <;> cases h <;> rfl
  · cases h; rfl
  · cases h; rfl

/-- Nothing is spent by answering. -/
theorem respond_spent {α : Type} {E : Env Sig} {c : Core Sig} {codec : Codec α} {b1 b2 : Out Sig} {a : α} (h1 : spent [b1] = []) (h2 : spent [b2] = []) :
    spent (respond E c codec b1 b2 a) = [] := by
  unfold respond
  split
  · rfl
  · exact h1
  · split
    · rfl
    · exact h2

/-- Paying a gateway for a search: top-ups by the configured amount and payments of the given amount, the last of which is the one
reported. -/
theorem payPeer_ops {E : Env Sig} {c c' : Core Sig} {r : Addr} {a : Int} {o : Except Nat (Addr × Voucher Sig)} (h : payPeer E c r a = (c', o)) :
    ∃ ops, c'.payment = (payRun E.signVoucher c.payment ops).1 ∧
      (∀ op ∈ ops, (∃ ch, op = .topup r c.topupAmount ch) ∨ op = .pay r 0 a) ∧
      issued (payRun E.signVoucher c.payment ops).2 = (match o with | .ok (_, v) => [(r, v)] | .error _ => []) := by
  unfold payPeer at h
  split at h
  · rename_i p hp
    cases h
    refine ⟨[.pay r 0 a], ?_, by simp, ?_⟩ <;> simp [payRun, payStep, hp, issued]
  · rename_i p ch v hp
    cases h
    refine ⟨[.pay r 0 a], ?_, by simp, ?_⟩ <;> simp [payRun, payStep, hp, issued]
  · rename_i p hp
    unfold Payment.topupAndPay at h
    cases ht : Payment.topup p r c.topupAmount (E.topups r 0) with
    | mk p1 b1 =>
      rw [ht] at h
      cases b1 with
      | false =>
        cases h
        refine ⟨[.pay r 0 a, .topup r c.topupAmount (E.topups r 0)], ?_, by simp, ?_⟩ <;> simp [payRun, payStep, hp, ht, issued]
      | true =>
        dsimp only at h
        cases hp1 : Payment.pay E.signVoucher p1 r 0 a with
        | mk p2 o2 =>
          rw [hp1] at h
          cases o2 with
          | error =>
            cases h
            refine ⟨[.pay r 0 a, .topup r c.topupAmount (E.topups r 0), .pay r 0 a], ?_, by simp, ?_⟩ <;> simp [payRun, payStep, hp, ht, hp1, issued]
          | paid ch v =>
            cases h
            refine ⟨[.pay r 0 a, .topup r c.topupAmount (E.topups r 0), .pay r 0 a], ?_, by simp, ?_⟩ <;> simp [payRun, payStep, hp, ht, hp1, issued]
          | needTopup =>
            dsimp only at h
            cases ht2 : Payment.topup p2 r c.topupAmount (E.topups r 1) with
            | mk p3 b3 =>
              rw [ht2] at h
              cases b3 with
              | false =>
                cases h
                refine ⟨[.pay r 0 a, .topup r c.topupAmount (E.topups r 0), .pay r 0 a, .topup r c.topupAmount (E.topups r 1)], ?_, by simp, ?_⟩ <;>
                  simp [payRun, payStep, hp, ht, hp1, ht2, issued]
              | true =>
                dsimp only at h
                cases hp3 : Payment.pay E.signVoucher p3 r 0 a with
                | mk p4 o4 =>
                  rw [hp3] at h
                  cases o4 <;> cases h <;>
                  (refine ⟨[.pay r 0 a, .topup r c.topupAmount (E.topups r 0), .pay r 0 a, .topup r c.topupAmount (E.topups r 1), .pay r 0 a], ?_, by simp, ?_⟩ <;>
                    simp [payRun, payStep, hp, ht, hp1, ht2, hp3, issued])

theorem dhtV2Loop_ops (E : Env Sig) (cid : Id) : ∀ (rs : List Record) (c : Core Sig) (k : Contacts),
    ∃ ops, (dhtV2Loop E cid c rs k).1.payment = (payRun E.signVoucher c.payment ops).1 ∧
      (∀ op ∈ ops, (∃ r ch, op = .topup r c.topupAmount ch) ∨ ∃ r, op = .pay r 0 c.searchPrice) ∧
      issued (payRun E.signVoucher c.payment ops).2 = spent (dhtV2Loop E cid c rs k).2.1 ∧
      (spent (dhtV2Loop E cid c rs k).2.1).length ≤ rs.length
  | [], c, k => ⟨[], rfl, by simp, rfl, by simp [dhtV2Loop, spent]⟩
  | r :: rs, c, k => by
    unfold dhtV2Loop
    split
    · exact ⟨[], rfl, by simp, rfl, by simp [spent]⟩
    · split
      · rename_i c' code hp
        obtain ⟨ops, h1, h2, h3⟩ := payPeer_ops hp
        refine ⟨ops, h1, ?_, ?_, by simp [spent]⟩
        · intro op ho
          rcases h2 op ho with ⟨ch, h⟩ | h
          · exact .inl ⟨_, ch, h⟩
          · exact .inr ⟨_, h⟩
        · rw [h3]; rfl
      · rename_i c' ch v hp
        obtain ⟨ops, h1, h2, h3⟩ := payPeer_ops hp
        obtain ⟨p, hc'⟩ := payPeer_frame hp
        have h2' : ∀ op ∈ ops, (∃ r ch, op = .topup r c.topupAmount ch) ∨ ∃ r, op = .pay r 0 c.searchPrice := by
          intro op ho
          rcases h2 op ho with ⟨ch, h⟩ | h
          · exact .inl ⟨_, ch, h⟩
          · exact .inr ⟨_, h⟩
        split
        · rename_i out hreq
          refine ⟨ops, h1, h2', ?_, ?_⟩
          · rw [h3]; simp [spent, spent_append, request_spent hreq]
          · simp [spent, spent_append, request_spent hreq]
        · rename_i out resp _ hreq
          obtain ⟨ops2, g1, g2, g3, g4⟩ := dhtV2Loop_ops E cid rs c' (k.add ‹_› resp)
          refine ⟨ops ++ ops2, ?_, ?_, ?_, ?_⟩
          · rw [payRun_append, ← h1]
            exact g1
          · intro op ho
            rcases List.mem_append.1 ho with ho | ho
            · exact h2' op ho
            · have := g2 op ho
              rw [hc'] at this
              exact this
          · rw [payRun_append, ← h1, issued_append, h3, g3]
            simp [spent, spent_append, request_spent hreq]
          · simp only [List.cons_append, spent, spent_append, request_spent hreq, List.length_cons, List.nil_append]
            omega

/-- What the second version of the DHT discovery spends: nothing without a voucher that is accepted; and then it makes top-ups by
the configured amount, and at most one payment to each gateway near the content, each of the price of a search. -/
theorem C76_dhtV2_spends (E : Env Sig) (c : Core Sig) (m : Msg)
    (hs : spent (dhtV2 E c m).2 ≠ [] ∨ (dhtV2 E c m).1.payment.outbound ≠ c.payment.outbound) :
    ∃ id nonce ttl num inc ch v rs amount ops, decode clientDHTDiscoverRequestV2 m = .ok (some id, nonce, ttl, num, inc, ch, v) ∧ E.now ≤ ttl ∧
      E.near id num = some rs ∧ Credits E c ch v amount ∧
      (dhtV2 E c m).1.payment = (payRun E.signVoucher (receive E c ch v).1.payment ops).1 ∧
      (∀ op ∈ ops, (∃ r chain, op = .topup r c.topupAmount chain) ∨ ∃ r, op = .pay r 0 c.searchPrice) ∧
      issued (payRun E.signVoucher (receive E c ch v).1.payment ops).2 = spent (dhtV2 E c m).2 ∧
      (spent (dhtV2 E c m).2).length ≤ rs.length := by
  unfold dhtV2 at hs ⊢
  split at hs
  · simp [spent] at hs
  · simp [spent] at hs
  rename_i cid nonce ttl num inc ch v hreq
  split at hs
  · simp [spent] at hs
  rename_i httl
  rw [if_neg httl]
  split at hs
  · simp [spent] at hs
  rename_i id
  split at hs
  · simp [spent] at hs
  rename_i rs hrs
  split at hs
  · rename_i hrec
    obtain ⟨inb, rfl⟩ := receive_frame hrec
    simp [spent] at hs
  · rename_i hrec
    obtain ⟨inb, rfl⟩ := receive_frame hrec
    simp [spent] at hs
  rename_i c1 amount hrec
  obtain ⟨ops, h1, h2, h3, h4⟩ := dhtV2Loop_ops E id rs c1 ⟨[], [], []⟩
  obtain ⟨inb, hc1⟩ := receive_frame hrec
  have hfix : (∀ op ∈ ops, (∃ r chain, op = .topup r c.topupAmount chain) ∨ ∃ r, op = .pay r 0 c.searchPrice) := by
    rw [hc1] at h2
    exact h2
  have hwarn : spent (if amount < c.searchPrice * num then [Out.status 500] else [] : List (Out Sig)) = [] := by
    split <;> rfl
  refine ⟨id, nonce, ttl, num, inc, ch, v, rs, amount, ops, hreq, by omega, hrs, receive_snd hrec, ?_⟩
  rw [hrec]
  dsimp only
  cases hl : dhtV2Loop E id c1 rs ⟨[], [], []⟩ with
  | mk c2 rest =>
    obtain ⟨out, ok⟩ := rest
    rw [hl] at h1 h3 h4
    dsimp only at h1 h3 h4
    cases ok with
    | none =>
      dsimp only
      rw [spent_append, hwarn, List.nil_append]
      exact ⟨h1, hfix, h3, h4⟩
    | some k =>
      dsimp only
      rw [spent_append, spent_append, hwarn, respond_spent rfl rfl, List.nil_append, List.append_nil]
      exact ⟨h1, hfix, h3, h4⟩

/-- What is missing for C76 is only the check: a client that pays for as many gateways as it asks for pays for all that is spent,
if the register gives no more gateways than asked for. -/
theorem C76_dhtV2_covered_partial (E : Env Sig) (c : Core Sig) (m : Msg) (id : Id) (nonce ttl num : Int) (inc : Bool) (ch v : List Char)
    (rs : List Record) (amount : Int) (hreq : decode clientDHTDiscoverRequestV2 m = .ok (some id, nonce, ttl, num, inc, ch, v))
    (hrs : E.near id num = some rs) (hnum : (rs.length : Int) ≤ num) (_hcred : Credits E c ch v amount) (hp : 0 ≤ c.searchPrice)
    (hpay : c.searchPrice * num ≤ amount) : c.searchPrice * (spent (dhtV2 E c m).2).length ≤ amount := by
  by_cases hs : spent (dhtV2 E c m).2 = []
  · rw [hs]
    have : 0 ≤ c.searchPrice * num := Int.mul_nonneg hp (by omega)
    simp
    omega
  · obtain ⟨id', nonce', ttl', num', inc', ch', v', rs', amount', ops, h1, -, h2, h3, -, -, -, h4⟩ := C76_dhtV2_spends E c m (.inl hs)
    rw [hreq] at h1
    cases h1
    rw [hrs] at h2
    cases h2
    have : c.searchPrice * ((spent (dhtV2 E c m).2).length : Int) ≤ c.searchPrice * num := Int.mul_le_mul_of_nonneg_left (by omega) hp
    omega

/-- Against C76 and C49: the client is told that the payment is too small (`500`), and the gateway pays the gateways near the content
from its own channels all the same.  One voucher accepted, over any amount, is enough. -/
theorem C76_dhtV2_refuted (E : Env Sig) (c : Core Sig) (m : Msg) (id gid : Id) (nonce ttl num : Int) (inc : Bool) (ch v : List Char)
    (hreq : decode clientDHTDiscoverRequestV2 m = .ok (some id, nonce, ttl, num, inc, ch, v)) (httl : E.now ≤ ttl)
    (r : Record) (rs : List Record) (hnear : E.near id num = some (r :: rs)) (hgid : Ids.fromHex r.nodeID = some gid)
    (amount : Int) (hcred : Credits E c ch v amount) (hshort : amount < c.searchPrice * num)
    (o : Payment.Chan Sig) (hout : c.payment.outbound (String.ofList r.address) = some o) (hfunds : o.redeemed + c.searchPrice ≤ o.balance)
    (hsign : ∀ b, E.signVoucher b ≠ none) :
    ∃ v', Out.status 500 ∈ (dhtV2 E c m).2 ∧ Out.paid (String.ofList r.address) v' ∈ (dhtV2 E c m).2 ∧
      v'.body.amount = (o.lane 0).redeemed + c.searchPrice := by
  obtain ⟨inb, hc1⟩ := receive_frame (receive_credited hcred)
  have hpay : ∃ c' v', payPeer E (receive E c ch v).1 (String.ofList r.address) (receive E c ch v).1.searchPrice = (c', .ok (o.addr, v')) ∧
      v'.body.amount = (o.lane 0).redeemed + c.searchPrice := by
    rw [hc1]
    unfold payPeer Payment.pay
    dsimp only
    rw [hout]
    dsimp only
    rw [if_neg (by omega)]
    cases hb : E.signVoucher ⟨o.addr, 0, (o.lane 0).nonce, (o.lane 0).redeemed + c.searchPrice⟩ with
    | none => exact absurd hb (hsign _)
    | some sig => exact ⟨_, _, rfl, rfl⟩
  obtain ⟨c', v', hpay, hv⟩ := hpay
  refine ⟨v', ?_⟩
  unfold dhtV2
  rw [hreq]
  dsimp only
  rw [if_neg (by omega)]
  simp only [hnear]
  rw [receive_credited hcred]
  dsimp only
  rw [if_pos hshort]
  have hloop : Out.paid (String.ofList r.address) v' ∈ (dhtV2Loop E id (receive E c ch v).1 (r :: rs) ⟨[], [], []⟩).2.1 := by
    unfold dhtV2Loop
    rw [hgid]
    dsimp only
    rw [hpay]
    dsimp only
    split <;> simp
  cases hl : dhtV2Loop E id (receive E c ch v).1 (r :: rs) ⟨[], [], []⟩ with
  | mk c2 rest =>
    obtain ⟨out, ok⟩ := rest
    rw [hl] at hloop
    cases ok with
    | none => exact ⟨by simp, by simpa using hloop, hv⟩
    | some k => exact ⟨by simp, by simp; exact .inl hloop, hv⟩

/-- The hypotheses can be met: a client that pays 1 for one gateway makes the gateway pay 3. -/
example : ∃ m v', Out.status 500 ∈ (dhtV2 exEnv exCore m).2 ∧ Out.paid "p" v' ∈ (dhtV2 exEnv exCore m).2 ∧ v'.body.amount = 3 := by
  obtain ⟨m, hd⟩ := exDecodes (C30_clientDHTDiscoverRequestV2 exEnv.pr defaultProtocolOk (some (exId 2)) 7 2000 1 false ['c'] ['1']
    (exIdOk 2) ⟨by decide, by decide⟩ ⟨by decide, by decide⟩ ⟨by decide, by decide⟩)
  have hid : Ids.fromHex exRecord.nodeID = some (exId 3) := Ids.fromHex_toStr (exId_proper 3)
  obtain ⟨v', h1, h2, h3⟩ := C76_dhtV2_refuted exEnv exCore m (exId 2) (exId 3) 7 2000 1 false ['c'] ['1'] hd (by decide) exRecord [] rfl hid 1
    exCore_credits1 (by decide) ⟨"out", 100, 0, fun _ => none⟩ rfl (by decide) (by simp [exEnv])
  exact ⟨m, v', h1, h2, h3⟩

/-! ## the offers -/

theorem payPeerOffer_ops {E : Env Sig} {c c' : Core Sig} {r : Addr} {a : Int} {o : Except Nat (Option (Addr × Voucher Sig))}
    (h : payPeerOffer E c r a = (c', o)) :
    ∃ ops, c'.payment = (payRun E.signVoucher c.payment ops).1 ∧
      (∀ op ∈ ops, (∃ ch, op = .topup r c.topupAmount ch) ∨ op = .pay r 0 a ∨ op = .pay r 0 c.searchPrice) ∧
      issued (payRun E.signVoucher c.payment ops).2 = (match (generalizing := false) o with | .ok (some (_, v)) => [(r, v)] | _ => []) := by
  unfold payPeerOffer at h
  split at h
  · rename_i p hp
    cases h
    refine ⟨[.pay r 0 a], ?_, by simp, ?_⟩ <;> simp [payRun, payStep, hp, issued]
  · rename_i p ch v hp
    cases h
    refine ⟨[.pay r 0 a], ?_, by simp, ?_⟩ <;> simp [payRun, payStep, hp, issued]
  · rename_i p hp
    split at h
    · rename_i p1 ht
      cases h
      refine ⟨[.pay r 0 a, .topup r c.topupAmount (E.topups r 0)], ?_, by simp, ?_⟩ <;> simp [payRun, payStep, hp, ht, issued]
    · rename_i p1 ht
      split at h <;> rename_i hp1 <;> cases h <;>
        (refine ⟨[.pay r 0 a, .topup r c.topupAmount (E.topups r 0), .pay r 0 c.searchPrice], ?_, by simp, ?_⟩ <;>
          simp [payRun, payStep, hp, ht, hp1, issued])

theorem dhtOfferLoop_ops (E : Env Sig) (cid : Option Id) (nonce : Int) : ∀ (ids : List Id) (dss : List (List (List Char))) (c : Core Sig) (k : Contacts),
    ∃ ops, (dhtOfferLoop E cid nonce c ids dss k).1.payment = (payRun E.signVoucher c.payment ops).1 ∧
      (∀ op ∈ ops, (∃ r ch, op = .topup r c.topupAmount ch) ∨ (∃ r, ∃ ds ∈ dss, op = .pay r 0 ((ds.length : Int) * c.offerPrice)) ∨
        ∃ r, op = .pay r 0 c.searchPrice) ∧
      issued (payRun E.signVoucher c.payment ops).2 = spent (dhtOfferLoop E cid nonce c ids dss k).2.1 ∧
      (spent (dhtOfferLoop E cid nonce c ids dss k).2.1).length ≤ ids.length
  | [], _, c, k => ⟨[], by simp [dhtOfferLoop, payRun], by simp, by simp [dhtOfferLoop, payRun, issued, spent], by simp [dhtOfferLoop, spent]⟩
  | _ :: _, [], c, k => ⟨[], by simp [dhtOfferLoop, payRun], by simp, by simp [dhtOfferLoop, payRun, issued, spent], by simp [dhtOfferLoop, spent]⟩
  | id :: ids, ds :: dss, c, k => by
    unfold dhtOfferLoop
    split
    · exact ⟨[], rfl, by simp, rfl, by simp [spent]⟩
    · split
      · rename_i c' code hp
        obtain ⟨ops, h1, h2, h3⟩ := payPeerOffer_ops hp
        refine ⟨ops, h1, ?_, ?_, by simp [spent]⟩
        · intro op ho
          rcases h2 op ho with ⟨ch, h⟩ | h | h
          · exact .inl ⟨_, ch, h⟩
          · exact .inr (.inl ⟨_, ds, by simp, h⟩)
          · exact .inr (.inr ⟨_, h⟩)
        · rw [h3]; rfl
      · rename_i g _ _ c' pay hp
        obtain ⟨ops, h1, h2, h3⟩ := payPeerOffer_ops hp
        obtain ⟨p, hc'⟩ := payPeerOffer_frame hp
        have h2' : ∀ op ∈ ops, (∃ r ch, op = .topup r c.topupAmount ch) ∨ (∃ r, ∃ d ∈ ds :: dss, op = .pay r 0 ((d.length : Int) * c.offerPrice)) ∨
            ∃ r, op = .pay r 0 c.searchPrice := by
          intro op ho
          rcases h2 op ho with ⟨ch, h⟩ | h | h
          · exact .inl ⟨_, ch, h⟩
          · exact .inr (.inl ⟨_, ds, by simp, h⟩)
          · exact .inr (.inr ⟨_, h⟩)
        have hsp : spent ((pay.map (fun p => Out.paid (String.ofList g.address) p.2)).toList : List (Out Sig)) =
            (match (Except.ok pay : Except Nat (Option (Addr × Voucher Sig))) with | .ok (some (_, v)) => [(String.ofList g.address, v)] | _ => []) := by
          cases pay <;> rfl
        have hle : (spent ((pay.map (fun p => Out.paid (String.ofList g.address) p.2)).toList : List (Out Sig))).length ≤ 1 := by
          cases pay <;> simp [spent]
        dsimp only
        split
        · rename_i out hreq
          refine ⟨ops, h1, h2', ?_, ?_⟩
          · rw [h3, ← hsp]; simp [spent, spent_append, request_spent hreq]
          · simp only [spent, spent_append, request_spent hreq, List.append_nil, List.length_cons]
            omega
        · rename_i out resp _ hreq
          obtain ⟨ops2, g1, g2, g3, g4⟩ := dhtOfferLoop_ops E cid nonce ids dss c' (k.add id resp)
          refine ⟨ops ++ ops2, ?_, ?_, ?_, ?_⟩
          · rw [payRun_append, ← h1]
            exact g1
          · intro op ho
            rcases List.mem_append.1 ho with ho | ho
            · exact h2' op ho
            · have := g2 op ho
              rw [hc'] at this
              rcases this with h | ⟨r, d, hd, h⟩ | h
              · exact .inl h
              · exact .inr (.inl ⟨r, d, by simp [hd], h⟩)
              · exact .inr (.inr h)
          · rw [payRun_append, ← h1, issued_append, h3, g3, ← hsp]
            simp [spent, spent_append, request_spent hreq]
          · simp only [spent_append, request_spent hreq, List.length_cons, List.append_nil, List.length_append]
            omega

/-- What the relaying of offer requests spends. -/
theorem C76_dhtOffer_spends (E : Env Sig) (c : Core Sig) (m : Msg)
    (hs : spent (dhtOffer E c m).2 ≠ [] ∨ (dhtOffer E c m).1.payment.outbound ≠ c.payment.outbound) :
    ∃ cid nonce dss ids ch v amount ops, decode clientDHTDiscoverOfferRequest m = .ok (cid, nonce, dss, ids, ch, v) ∧ Credits E c ch v amount ∧
      (dhtOffer E c m).1.payment = (payRun E.signVoucher (receive E c ch v).1.payment ops).1 ∧
      (∀ op ∈ ops, (∃ r chain, op = .topup r c.topupAmount chain) ∨ (∃ r, ∃ ds ∈ dss, op = .pay r 0 ((ds.length : Int) * c.offerPrice)) ∨
        ∃ r, op = .pay r 0 c.searchPrice) ∧
      issued (payRun E.signVoucher (receive E c ch v).1.payment ops).2 = spent (dhtOffer E c m).2 ∧
      (spent (dhtOffer E c m).2).length ≤ ids.length := by
  unfold dhtOffer at hs ⊢
  split at hs
  · simp [spent] at hs
  · simp [spent] at hs
  rename_i cid nonce dss ids ch v hreq
  split at hs
  · rename_i hrec
    obtain ⟨inb, rfl⟩ := receive_frame hrec
    simp [spent] at hs
  · rename_i hrec
    obtain ⟨inb, rfl⟩ := receive_frame hrec
    simp [spent] at hs
  rename_i c1 amount hrec
  obtain ⟨ops, h1, h2, h3, h4⟩ := dhtOfferLoop_ops E cid nonce ids dss c1 ⟨[], [], []⟩
  obtain ⟨inb, hc1⟩ := receive_frame hrec
  have hfix : ∀ op ∈ ops, (∃ r chain, op = .topup r c.topupAmount chain) ∨ (∃ r, ∃ ds ∈ dss, op = .pay r 0 ((ds.length : Int) * c.offerPrice)) ∨
        ∃ r, op = .pay r 0 c.searchPrice := by
    rw [hc1] at h2
    exact h2
  have hwarn : spent (if amount < ((dss.map List.length).sum : Int) * c.offerPrice then [Out.status 500] else [] : List (Out Sig)) = [] := by
    split <;> rfl
  refine ⟨cid, nonce, dss, ids, ch, v, amount, ops, hreq, receive_snd hrec, ?_⟩
  rw [hrec]
  dsimp only
  cases hl : dhtOfferLoop E cid nonce c1 ids dss ⟨[], [], []⟩ with
  | mk c2 rest =>
    obtain ⟨out, ok⟩ := rest
    rw [hl] at h1 h3 h4
    dsimp only at h1 h3 h4
    cases ok with
    | none =>
      dsimp only
      rw [spent_append, hwarn, List.nil_append]
      exact ⟨h1, hfix, h3, h4⟩
    | some k =>
      dsimp only
      rw [spent_append, spent_append, hwarn, respond_spent rfl rfl, List.nil_append, List.append_nil]
      exact ⟨h1, hfix, h3, h4⟩

/-- Against C76: the same for offers.  The client is told `500`, and every gateway it named is paid. -/
theorem C76_dhtOffer_refuted (E : Env Sig) (c : Core Sig) (m : Msg) (cid : Option Id) (gid : Id) (nonce : Int) (ds : List (List Char))
    (dss : List (List (List Char))) (ids : List Id) (ch v : List Char)
    (hreq : decode clientDHTDiscoverOfferRequest m = .ok (cid, nonce, ds :: dss, gid :: ids, ch, v))
    (r : Record) (hg : E.gateway gid = some r) (amount : Int) (hcred : Credits E c ch v amount)
    (hshort : amount < (((ds :: dss).map List.length).sum : Int) * c.offerPrice)
    (o : Payment.Chan Sig) (hout : c.payment.outbound (String.ofList r.address) = some o)
    (hfunds : o.redeemed + (ds.length : Int) * c.offerPrice ≤ o.balance) (hsign : ∀ b, E.signVoucher b ≠ none) :
    ∃ v', Out.status 500 ∈ (dhtOffer E c m).2 ∧ Out.paid (String.ofList r.address) v' ∈ (dhtOffer E c m).2 ∧
      v'.body.amount = (o.lane 0).redeemed + (ds.length : Int) * c.offerPrice := by
  obtain ⟨inb, hc1⟩ := receive_frame (receive_credited hcred)
  have hpay : ∃ c' v', payPeerOffer E (receive E c ch v).1 (String.ofList r.address) ((ds.length : Int) * (receive E c ch v).1.offerPrice) =
      (c', .ok (some (o.addr, v'))) ∧ v'.body.amount = (o.lane 0).redeemed + (ds.length : Int) * c.offerPrice := by
    rw [hc1]
    unfold payPeerOffer Payment.pay
    dsimp only
    rw [hout]
    dsimp only
    rw [if_neg (by omega)]
    cases hb : E.signVoucher ⟨o.addr, 0, (o.lane 0).nonce, (o.lane 0).redeemed + (ds.length : Int) * c.offerPrice⟩ with
    | none => exact absurd hb (hsign _)
    | some sig => exact ⟨_, _, rfl, rfl⟩
  obtain ⟨c', v', hpay, hv⟩ := hpay
  refine ⟨v', ?_⟩
  unfold dhtOffer
  rw [hreq]
  dsimp only
  rw [receive_credited hcred]
  dsimp only
  rw [if_pos hshort]
  have hloop : Out.paid (String.ofList r.address) v' ∈ (dhtOfferLoop E cid nonce (receive E c ch v).1 (gid :: ids) (ds :: dss) ⟨[], [], []⟩).2.1 := by
    unfold dhtOfferLoop
    rw [hg]
    dsimp only
    rw [hpay]
    dsimp only
    split <;> simp
  cases hl : dhtOfferLoop E cid nonce (receive E c ch v).1 (gid :: ids) (ds :: dss) ⟨[], [], []⟩ with
  | mk c2 rest =>
    obtain ⟨out, ok⟩ := rest
    rw [hl] at hloop
    cases ok with
    | none => exact ⟨by simp, by simpa using hloop, hv⟩
    | some k => exact ⟨by simp, by simp; exact .inl hloop, hv⟩

/-- The hypotheses can be met: a client that pays 1 for three offers makes the gateway pay 6. -/
example : ∃ m v', Out.status 500 ∈ (dhtOffer exEnv exCore m).2 ∧ Out.paid "p" v' ∈ (dhtOffer exEnv exCore m).2 ∧ v'.body.amount = 6 := by
  obtain ⟨m, hd⟩ := exDecodes (C30_clientDHTDiscoverOfferRequest exEnv.pr defaultProtocolOk (some (exId 2)) 7 [[['a'], ['b'], ['c']]] [exId 3] ['c'] ['1']
    (exIdOk 2) ⟨by decide, by decide⟩ (by intro p hp; simp at hp; subst hp; exact exId_proper 3))
  obtain ⟨v', h1, h2, h3⟩ := C76_dhtOffer_refuted exEnv exCore m (some (exId 2)) (exId 3) 7 [['a'], ['b'], ['c']] [] [] ['c'] ['1'] hd exRecord
    (by simp [exEnv]) 1 exCore_credits1 (by decide) ⟨"out", 100, 0, fun _ => none⟩ rfl (by decide) (by simp [exEnv])
  exact ⟨m, v', h1, h2, h3⟩

/-- What holds of C76: only the two relaying requests of clients spend, and only when the voucher of the client is accepted. -/
theorem C76_partial (E : Env Sig) (c : Core Sig) (k : Kind) (m : Msg)
    (hs : (∃ r v, Out.paid r v ∈ (serve E c k m).2) ∨ (serve E c k m).1.payment.outbound ≠ c.payment.outbound) :
    (k = .dhtV2 ∧ ∃ cid nonce ttl num inc ch v amount, decode clientDHTDiscoverRequestV2 m = .ok (cid, nonce, ttl, num, inc, ch, v) ∧ E.now ≤ ttl ∧
      Credits E c ch v amount) ∨
    (k = .dhtOffer ∧ ∃ cid nonce dss ids ch v amount, decode clientDHTDiscoverOfferRequest m = .ok (cid, nonce, dss, ids, ch, v) ∧
      Credits E c ch v amount) := by
  have hs' : spent (serve E c k m).2 ≠ [] ∨ (serve E c k m).1.payment.outbound ≠ c.payment.outbound := by
    rcases hs with ⟨r, v, h⟩ | h
    · exact .inl (fun h0 => by have := mem_spent.2 h; rw [h0] at this; simp at this)
    · exact .inr h
  have none : spent (serve E c k m).2 = [] → (serve E c k m).1.payment.outbound = c.payment.outbound → False := by
    intro h1 h2
    rcases hs' with h | h
    · exact h h1
    · exact h h2
  have hr : ∀ {α : Type} {c : Core Sig} {codec : Codec α} {a : α}, spent (respond E c codec (Out.status 400) (Out.status 500) a) = [] :=
    respond_spent rfl rfl
  have hi : ∀ {α : Type} {c : Core Sig} {codec : Codec α} {a : α}, spent (respond E c codec Out.invalid Out.invalid a) = [] :=
    respond_spent rfl rfl
  have h5 : ∀ {α : Type} {c : Core Sig} {codec : Codec α} {a : α}, spent (respond E c codec (Out.status 500) (Out.status 500) a) = [] :=
    respond_spent rfl rfl
  cases k with
  | dhtV2 =>
    obtain ⟨id, nonce, ttl, num, inc, ch, v, rs, amount, ops, h1, h2, -, h3, -⟩ := C76_dhtV2_spends E c m hs'
    exact .inl ⟨rfl, _, _, _, _, _, _, _, _, h1, h2, h3⟩
  | dhtOffer =>
    obtain ⟨cid, nonce, dss, ids, ch, v, amount, ops, h1, h3, -⟩ := C76_dhtOffer_spends E c m hs'
    exact .inr ⟨rfl, _, _, _, _, _, _, _, h1, h3⟩
  | establishment =>
    exfalso
    apply none <;> simp only [serve] <;> unfold establishment
    · split
      · rfl
      · rfl
      · rfl
      · split
        · rfl
        · (dsimp only; apply respond_spent <;> rfl)
    · split
      · rfl
      · rfl
      · rfl
      · split <;> rfl
  | standard =>
    exfalso
    apply none <;> simp only [serve] <;> unfold standard
    · split
      · rfl
      · rfl
      · split
        · rfl
        · split
          · rfl
          · split
            · exact hr
            · rfl
    · split
      · rfl
      · rfl
      · split
        · rfl
        · split
          · rfl
          · split <;> rfl
  | standardV2 =>
    exfalso
    apply none <;> simp only [serve] <;> unfold standardV2
    · split
      · rfl
      · rfl
      · split
        · rfl
        · split
          · rfl
          · split
            · dsimp only
              split
              · rfl
              · (dsimp only; apply respond_spent <;> rfl)
              · split
                · split
                  · exact hr
                  · rfl
                · (dsimp only; apply respond_spent <;> rfl)
            · rfl
    · split
      · rfl
      · rfl
      · split
        · rfl
        · split
          · rfl
          · split
            · dsimp only
              split <;> rename_i hc <;> obtain ⟨inb, rfl⟩ := receive_frame hc
              · rfl
              · rfl
              · split
                · split <;> rfl
                · rfl
            · rfl
  | standardOffer =>
    exfalso
    apply none <;> simp only [serve] <;> unfold standardOffer
    · split
      · rfl
      · rfl
      · split
        · rfl
        · dsimp only
          split
          · rfl
          · exact hr
          · split
            · split
              · exact hr
              · rfl
            · exact hr
    · split
      · rfl
      · rfl
      · split
        · rfl
        · dsimp only
          split <;> rename_i hc <;> obtain ⟨inb, rfl⟩ := receive_frame hc
          · rfl
          · rfl
          · split
            · split <;> rfl
            · rfl
  | dht =>
    exfalso
    have hl : ∀ (ids : List Id) (id : Id) (k : Contacts), spent (dhtLoop E c id ids k).1 = [] := by
      intro ids id
      induction ids with
      | nil => intro k; rfl
      | cons i ids ih =>
        intro k
        unfold dhtLoop
        split
        · rename_i h; simp [spent_append, request_spent h, spent]
        · rename_i h; simp [spent_append, request_spent h, ih]
    apply none <;> simp only [serve] <;> unfold dht
    · split
      · rfl
      · rfl
      · split
        · rfl
        · split
          · rfl
          · rename_i id _
            split
            · rfl
            · split
              · rfl
              · rename_i ids hids
                have := hl ids id ⟨[], [], []⟩
                split <;> rename_i hd <;> rw [hd] at this
                · exact this
                · rw [spent_append, h5, List.append_nil]
                  exact this
    · split
      · rfl
      · rfl
      · split
        · rfl
        · split
          · rfl
          · split
            · rfl
            · split
              · rfl
              · split <;> rfl
  | peerDht =>
    exfalso
    apply none <;> simp only [serve] <;> unfold peerDht
    · split
      · rfl
      · rfl
      · split
        · rfl
        · rfl
        · split
          · rfl
          · split
            · rfl
            · split
              · exact hi
              · rfl
    · split
      · rfl
      · rfl
      · split
        · rfl
        · rfl
        · split
          · rfl
          · split
            · rfl
            · split <;> rfl
  | peerDhtV2 =>
    exfalso
    apply none <;> simp only [serve] <;> unfold peerDhtV2
    · split
      · rfl
      · rfl
      · split
        · rfl
        · rfl
        · split
          · rfl
          · split
            · rfl
            · rfl
            · split
              · rfl
              · split
                · split
                  · split <;> exact hi
                  · rfl
                · rfl
    · split
      · rfl
      · rfl
      · split
        · rfl
        · rfl
        · split
          · rfl
          · split <;> rename_i hc <;> obtain ⟨inb, rfl⟩ := receive_frame hc
            · rfl
            · rfl
            · split
              · rfl
              · split
                · split
                  · split <;> rfl
                  · rfl
                · rfl
  | peerDhtOffer =>
    exfalso
    apply none <;> simp only [serve] <;> unfold peerDhtOffer
    · split
      · rfl
      · rfl
      · split
        · rfl
        · rfl
        · dsimp only
          split
          · split <;> exact hi
          · rfl
    · split
      · rfl
      · rfl
      · split <;> rename_i hc <;> obtain ⟨inb, rfl⟩ := receive_frame hc
        · rfl
        · rfl
        · dsimp only
          split
          · split <;> rfl
          · rfl
  | publishDht =>
    exfalso
    apply none <;> simp only [serve] <;> unfold publishDht
    · split
      · rfl
      · rfl
      · split
        · rfl
        · rfl
        · split
          · rfl
          · rfl
          · split
            · rfl
            · (dsimp only; apply respond_spent <;> rfl)
    · split
      · rfl
      · rfl
      · split
        · rfl
        · rfl
        · split
          · rfl
          · rfl
          · split <;> rfl
  | publishGroup =>
    exfalso
    apply none <;> simp only [serve] <;> unfold publishGroup
    · split
      · split
        · rfl
        · rfl
        · split
          · rfl
          · rfl
          · split
            · rfl
            · split
              · (dsimp only; apply respond_spent <;> rfl)
              · rfl
            · rfl
      · rfl
      · rfl
    · split
      · split
        · rfl
        · rfl
        · split
          · rfl
          · rfl
          · split
            · rfl
            · split <;> rfl
            · rfl
      · rfl
      · rfl

end FcRetrieval.Gateway
