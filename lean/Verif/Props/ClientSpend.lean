import Verif.Spec.ClientSpend
import Verif.Props.ClientReturn
/-!
# C113-C115: what the client spends, and what its success means
-/
set_option linter.unusedSimpArgs false

namespace FcRetrieval.Client
open FcRetrieval.Ids (Id)
open FcRetrieval.Merkle (exId)
open FcRetrieval.Message (Msg)
open FcRetrieval.Offer (SubOffer CidOffer)
open FcRetrieval.Payment (Addr Voucher)
open FcRetrieval.Register (Record)
open FcRetrieval.Wire (Codec encode decode)
open FcRetrieval.Codecs
open FcRetrieval.Gateway (res_ok_of_bind)
open FcRetrieval.Provider (exMsg exMsg_decode exMsg_signed)

variable {Sig S : Type}

attribute [local irreducible] Provider.exMsg

theorem payments_ask (E : Env Sig) (n : Nat) (r : Record) (q : Res Msg) : payments (ask E n r q).1 = [] := by
  unfold ask
  split <;> rfl

/-- What a payment of the client does: it is seen iff it succeeds, and it changes nothing but the payment manager. -/
theorem topupAndPay_pays (E : Env Sig) (c : Client Sig) (n : Nat) (recipient : Addr) (amount : Int) :
    (topupAndPay E c n recipient amount).1.settings = c.settings ∧
    ((∃ x, (topupAndPay E c n recipient amount).2.2 = .ok x) ∧ payments (topupAndPay E c n recipient amount).2.1 = [(recipient, amount)] ∨
      (∀ x, (topupAndPay E c n recipient amount).2.2 ≠ .ok x) ∧ payments (topupAndPay E c n recipient amount).2.1 = []) := by
  unfold topupAndPay
  split
  · exact ⟨rfl, .inr ⟨by simp, rfl⟩⟩
  · split
    · exact ⟨rfl, .inl ⟨⟨_, rfl⟩, rfl⟩⟩
    · exact ⟨rfl, .inr ⟨by simp, rfl⟩⟩

theorem payFor_pays (E : Env Sig) (c : Client Sig) (n : Nat) (recipient : Addr) (amount : Int) :
    (payFor E c n recipient amount).1.settings = c.settings ∧
    ((∃ x, (payFor E c n recipient amount).2.2 = .ok x) ∧ payments (payFor E c n recipient amount).2.1 = [(recipient, amount)] ∨
      (∀ x, (payFor E c n recipient amount).2.2 ≠ .ok x) ∧ payments (payFor E c n recipient amount).2.1 = []) := by
  unfold payFor
  split
  · exact ⟨rfl, .inr ⟨by simp, rfl⟩⟩
  · split
    · exact ⟨rfl, .inr ⟨by simp, rfl⟩⟩
    · exact ⟨rfl, .inl ⟨⟨_, rfl⟩, rfl⟩⟩
    · exact topupAndPay_pays E _ n recipient amount

theorem payments_requestStandardV2 (E : Env Sig) (n : Nat) (r : Record) (cid : Id) (nonce ttl : Int) (ch v : List Char) :
    payments (requestStandardV2 E n r cid nonce ttl ch v).1 = [] := payments_ask _ _ _ _

theorem payments_requestStandardOffer (E : Env Sig) (n : Nat) (r : Record) (cid : Id) (nonce ttl : Int) (ds : List (List Char)) (ch v : List Char) :
    payments (requestStandardOffer E n r cid nonce ttl ds ch v).1 = [] := payments_ask _ _ _ _

theorem payments_requestDhtV2 (E : Env Sig) (n : Nat) (r : Record) (cid : Id) (nonce ttl num : Int) (ch v : List Char) :
    payments (requestDhtV2 E n r cid nonce ttl num ch v).1 = [] := payments_ask _ _ _ _

theorem payments_requestDhtOffer (E : Env Sig) (n : Nat) (r : Record) (ids : List Id) (cid : Id) (nonce : Int) (dss : List (List (List Char))) (ch v : List Char) :
    payments (requestDhtOffer E n r ids cid nonce dss ch v).1 = [] := payments_ask _ _ _ _

theorem requestStandardV2_true {E : Env Sig} {n : Nat} {r : Record} {cid : Id} {nonce ttl : Int} {ch v : List Char} {ds : List (List Char)}
    (h : (requestStandardV2 E n r cid nonce ttl ch v).2 = .ok (ds, true)) :
    ∃ m a cid nonce found digests funded x, Answered E n r m a ∧ decode clientStandardDiscoverResponseV2 a = .ok (cid, nonce, found, digests, funded, true, x) := by
  unfold requestStandardV2 at h
  dsimp only at h
  obtain ⟨a, ha, h⟩ := res_ok_of_bind h
  obtain ⟨⟨c', nonce', found, digests, funded, req, x⟩, hd, h⟩ := res_ok_of_bind h
  dsimp only at h
  obtain ⟨c, hc, h⟩ := res_ok_of_bind h
  obtain ⟨m, -, -, hans⟩ := ask_ok ha
  split at h
  · cases h
  · split at h
    · cases h
    · split at h
      · rename_i hreq
        cases hreq
        exact ⟨m, a, _, _, _, _, _, _, hans, hd⟩
      · cases h

theorem requestDhtV2_some {E : Env Sig} {n : Nat} {r : Record} {cid : Id} {nonce ttl num : Int} {ch v : List Char} {l : List (Id × Msg)} {t : List Char}
    (h : (requestDhtV2 E n r cid nonce ttl num ch v).2 = .ok (l, some t)) :
    ∃ m a ids answers missed nonce, Answered E n r m a ∧ decode clientDHTDiscoverResponseV2 a = .ok (ids, answers, missed, nonce, true, t) := by
  unfold requestDhtV2 at h
  dsimp only at h
  obtain ⟨a, ha, h⟩ := res_ok_of_bind h
  obtain ⟨⟨ids, answers, missed, nonce', req, t'⟩, hd, h⟩ := res_ok_of_bind h
  dsimp only at h
  obtain ⟨m, -, -, hans⟩ := ask_ok ha
  split at h
  · cases h
  · split at h
    · cases h
    · simp only [Res.ok.injEq, Prod.mk.injEq] at h
      cases req
      · simp at h
      · simp only [if_true, Option.some.injEq] at h
        rw [h.2] at hd
        exact ⟨m, a, _, _, _, _, hans, hd⟩

theorem searchStandardV2_pays (E : Env Sig) (c : Client Sig) (r : Record) (cid : Id) (ch : Addr) (v : Voucher Sig) :
    (searchStandardV2 E c r cid ch v).1.settings = c.settings ∧
    (payments (searchStandardV2 E c r cid ch v).2.1 = [] ∨
      payments (searchStandardV2 E c r cid ch v).2.1 = [(String.ofList r.address, c.settings.searchPrice)] ∧ Demanded E r) := by
  unfold searchStandardV2
  dsimp only
  split
  · exact ⟨rfl, .inl (payments_requestStandardV2 E 0 ..)⟩
  · exact ⟨rfl, .inl (payments_requestStandardV2 E 0 ..)⟩
  · exact ⟨rfl, .inl (payments_requestStandardV2 E 0 ..)⟩
  · rename_i ds hreq
    have hdem : Demanded E r := requestStandardV2_true hreq
    obtain ⟨h1, h2⟩ := topupAndPay_pays E c 1 (String.ofList r.address) c.settings.searchPrice
    split
    · rename_i c2 out ht
      rw [ht] at h1 h2
      refine ⟨h1, .inl ?_⟩
      rw [payments_append, payments_requestStandardV2]
      rcases h2 with ⟨⟨x, hx⟩, -⟩ | ⟨-, h2⟩
      · cases hx
      · exact h2
    · rename_i c2 out ht
      rw [ht] at h1 h2
      refine ⟨h1, .inl ?_⟩
      rw [payments_append, payments_requestStandardV2]
      rcases h2 with ⟨⟨x, hx⟩, -⟩ | ⟨-, h2⟩
      · cases hx
      · exact h2
    · rename_i c2 out ch2 v2 ht
      rw [ht] at h1 h2
      refine ⟨h1, .inr ⟨?_, hdem⟩⟩
      rw [payments_append, payments_append, payments_requestStandardV2, payments_requestStandardV2]
      rcases h2 with ⟨-, h2⟩ | ⟨h2, -⟩
      · simpa using h2
      · exact absurd rfl (h2 _)

theorem fetchStandardV2_pays (E : Env Sig) (c : Client Sig) (r : Record) (cid : Id) (ds : List (List Char)) (max : Int) :
    payments (fetchStandardV2 E c r cid ds max).2.1 = [] ∨
      payments (fetchStandardV2 E c r cid ds max).2.1 = [(String.ofList r.address, ds.length * c.settings.offerPrice)] := by
  obtain ⟨h1, h2⟩ := payFor_pays E c 2 (String.ofList r.address) (ds.length * c.settings.offerPrice)
  unfold fetchStandardV2
  split
  · rename_i c2 out ht
    rw [ht] at h2
    rcases h2 with ⟨⟨x, hx⟩, -⟩ | ⟨-, h2⟩
    · cases hx
    · exact .inl h2
  · rename_i c2 out ht
    rw [ht] at h2
    rcases h2 with ⟨⟨x, hx⟩, -⟩ | ⟨-, h2⟩
    · cases hx
    · exact .inl h2
  · rename_i c2 out ch2 v2 ht
    rw [ht] at h2
    dsimp only
    rw [payments_append, payments_requestStandardOffer]
    rcases h2 with ⟨-, h2⟩ | ⟨h2, -⟩
    · exact .inr (by simpa using h2)
    · exact absurd rfl (h2 _)

/-- **C113**, the standard discovery: it pays nobody but the gateway asked, at its registered address.  It pays the configured price for a
search once, a second time only if the gateway answered that payment is required, and after that at most once for offers: the configured
price for each of `j` offers, where `j` is at most the limit.  Without an active gateway it pays nothing. -/
theorem C113_standardV2 (E : Env Sig) (c : Client Sig) (cid gw : Id) (max : Int) :
    (∀ r, ActiveRecord c gw r → ∃ searches offers, payments (findStandardV2 E c cid gw max).2.1 = searches ++ offers ∧
      (searches = [] ∧ offers = [] ∨ searches = [(String.ofList r.address, c.settings.searchPrice)] ∨
        searches = [(String.ofList r.address, c.settings.searchPrice), (String.ofList r.address, c.settings.searchPrice)] ∧ Demanded E r) ∧
      (offers = [] ∨ ∃ j : Nat, offers = [(String.ofList r.address, j * c.settings.offerPrice)] ∧ (j : Int) ≤ max)) ∧
    ((∀ r, ¬ ActiveRecord c gw r) → payments (findStandardV2 E c cid gw max).2.1 = []) := by
  unfold ActiveRecord
  constructor
  · intro r hr
    unfold findStandardV2
    rw [hr]
    dsimp only
    obtain ⟨h1, h2⟩ := payFor_pays E c 0 (String.ofList r.address) c.settings.searchPrice
    split
    · rename_i c2 out ht
      rw [ht] at h2
      rcases h2 with ⟨⟨x, hx⟩, -⟩ | ⟨-, h2⟩
      · cases hx
      · exact ⟨[], [], h2, .inl ⟨rfl, rfl⟩, .inl rfl⟩
    · rename_i c2 out ht
      rw [ht] at h2
      rcases h2 with ⟨⟨x, hx⟩, -⟩ | ⟨-, h2⟩
      · cases hx
      · exact ⟨[], [], h2, .inl ⟨rfl, rfl⟩, .inl rfl⟩
    · rename_i c2 out ch v ht
      rw [ht] at h1 h2
      have h2 : payments out = [(String.ofList r.address, c.settings.searchPrice)] := by
        rcases h2 with ⟨-, h2⟩ | ⟨h2, -⟩
        · exact h2
        · exact absurd rfl (h2 _)
      obtain ⟨h3, h4⟩ := searchStandardV2_pays E c2 r cid ch v
      have key : ∀ out1, (payments out1 = [] ∨ payments out1 = [(String.ofList r.address, c2.settings.searchPrice)] ∧ Demanded E r) →
          ∃ searches, payments (out ++ out1) = searches ∧ (searches = [(String.ofList r.address, c.settings.searchPrice)] ∨
            searches = [(String.ofList r.address, c.settings.searchPrice), (String.ofList r.address, c.settings.searchPrice)] ∧ Demanded E r) := by
        intro out1 h
        refine ⟨_, rfl, ?_⟩
        rw [payments_append, h2]
        rcases h with h | ⟨h, hd⟩
        · rw [h]
          exact .inl rfl
        · rw [h, show c2.settings = c.settings from h1]
          exact .inr ⟨rfl, hd⟩
      split
      · rename_i c3 out1 hs
        rw [hs] at h4
        obtain ⟨s, hs1, hs2⟩ := key out1 h4
        exact ⟨s, [], by rw [List.append_nil]; exact hs1, .inr hs2, .inl rfl⟩
      · rename_i c3 out1 hs
        rw [hs] at h4
        obtain ⟨s, hs1, hs2⟩ := key out1 h4
        exact ⟨s, [], by rw [List.append_nil]; exact hs1, .inr hs2, .inl rfl⟩
      · rename_i c3 out1 digests hs
        rw [hs] at h3 h4
        obtain ⟨s, hs1, hs2⟩ := key out1 h4
        split
        · exact ⟨s, [], by rw [List.append_nil]; exact hs1, .inr hs2, .inl rfl⟩
        · split
          · rename_i ds hds
            have hset : c3.settings = c.settings := Eq.trans h3 h1
            refine ⟨s, payments (fetchStandardV2 E c3 r cid ds max).2.1, ?_, .inr hs2, ?_⟩
            · dsimp only
              rw [payments_append, hs1]
            · rcases fetchStandardV2_pays E c3 r cid ds max with h | h
              · exact .inl h
              · rw [hset] at h
                refine .inr ⟨ds.length, h, ?_⟩
                split at hds
                · unfold upTo at hds
                  split at hds
                  · cases hds
                  · cases hds
                    simp only [List.length_take]
                    omega
                · cases hds
                  omega
          · exact ⟨s, [], by rw [List.append_nil]; exact hs1, .inr hs2, .inl rfl⟩
  · intro h
    unfold findStandardV2
    cases hr : mget c.active (Ids.toStr gw) with
    | none => rfl
    | some r => exact absurd hr (h r)

/-- **C113**, the sum: a call of the standard discovery spends at most two searches and `max` offers. -/
theorem C113_total (E : Env Sig) (c : Client Sig) (cid gw : Id) (max : Int) (hmax : 0 ≤ max) (hs : 0 ≤ c.settings.searchPrice) (ho : 0 ≤ c.settings.offerPrice) :
    total (payments (findStandardV2 E c cid gw max).2.1) ≤ 2 * c.settings.searchPrice + max * c.settings.offerPrice := by
  obtain ⟨h1, h2⟩ := C113_standardV2 E c cid gw max
  have hm : 0 ≤ max * c.settings.offerPrice := Int.mul_nonneg hmax ho
  cases hr : mget c.active (Ids.toStr gw) with
  | none =>
    rw [h2 (fun r h => by unfold ActiveRecord at h; rw [hr] at h; cases h)]
    simp only [total, List.map_nil, List.sum_nil]
    omega
  | some r =>
    obtain ⟨s, o, h, hs', ho'⟩ := h1 r hr
    rw [h]
    have ht : total (s ++ o) = total s + total o := by simp [total]
    rw [ht]
    have hts : total s ≤ 2 * c.settings.searchPrice := by
      rcases hs' with ⟨h, -⟩ | h | ⟨h, -⟩ <;> rw [h] <;> simp [total] <;> omega
    have hto : total o ≤ max * c.settings.offerPrice := by
      rcases ho' with h | ⟨j, h, hj⟩ <;> rw [h] <;> simp [total]
      · exact hm
      · exact Int.mul_le_mul_of_nonneg_right hj ho
    omega

/-- **C113**, the DHT discovery, partial: all payments but one go to the gateway asked: the first, for the search, and the last, the configured
price for each of at most `limit` offers.  The payment between them is made only if the gateway answered that payment is required, and goes
to the payee it named.  What is missing: the payee is not the gateway (`C113_payee_refuted`) and the price of a search is not the configured one
(`C113_price_refuted`). -/
theorem C113_dhtV2_partial (E : Env Sig) (c : Client Sig) (cid gw : Id) (num limit : Int) :
    (∀ r, ActiveRecord c gw r → ∃ search extra offers, payments (findDhtV2 E c cid gw num limit).2.1 = search ++ extra ++ offers ∧
      (search = [] ∧ extra = [] ∧ offers = [] ∨ search = [(String.ofList r.address, num * defaultSearchPrice)]) ∧
      (extra = [] ∨ ∃ payee, extra = [(String.ofList payee, c.settings.searchPrice)] ∧ DemandedFor E r payee) ∧
      (offers = [] ∨ ∃ j : Nat, offers = [(String.ofList r.address, j * c.settings.offerPrice)] ∧ (0 ≤ limit → (j : Int) ≤ limit))) ∧
    ((∀ r, ¬ ActiveRecord c gw r) → payments (findDhtV2 E c cid gw num limit).2.1 = []) := by
  unfold ActiveRecord
  constructor
  · intro r hr
    unfold findDhtV2
    rw [hr]
    dsimp only
    have hf0 := paymentMgr_frame E c
    split
    · rename_i ht
      obtain ⟨-, rfl⟩ := payFor_none ht (fun x => by simp)
      exact ⟨[], [], [], rfl, .inl ⟨rfl, rfl, rfl⟩, .inl rfl, .inl rfl⟩
    · rename_i ht
      obtain ⟨-, rfl⟩ := payFor_none ht (fun x => by simp)
      exact ⟨[], [], [], rfl, .inl ⟨rfl, rfl, rfl⟩, .inl rfl, .inl rfl⟩
    · rename_i c1 out ch v ht
      obtain ⟨hf1, rfl⟩ := payFor_ok ht
      have base {c2 : Client Sig} {out1 : List (Out Sig)} {res : Res (List (Id × Msg))} (hs : searchDhtV2 E c1 r cid num ch v = (c2, out1, res)) :
          Frame c1 c2 ∧ ∃ extra, payments ([.paid (String.ofList r.address) (num * defaultSearchPrice) v] ++ out1) =
              [(String.ofList r.address, num * defaultSearchPrice)] ++ extra ∧
            (extra = [] ∨ ∃ payee, extra = [(String.ofList payee, c.settings.searchPrice)] ∧ DemandedFor E r payee) := by
        obtain ⟨h1, h2, -⟩ := searchDhtV2_seen hs
        refine ⟨h1, payments out1, by rw [payments_append]; rfl, ?_⟩
        rcases h2 with h2 | ⟨m, a, ids, answers, un, nonce, to, ha, hd, h2⟩
        · exact .inl h2
        · exact .inr ⟨to, by rw [h2, hf1.1, hf0.1], m, a, ids, answers, un, nonce, ha, hd⟩
      split
      · rename_i hs
        obtain ⟨-, x, h2, h3⟩ := base hs
        exact ⟨_, x, [], by rw [h2, List.append_nil], .inr rfl, h3, .inl rfl⟩
      · rename_i hs
        obtain ⟨-, x, h2, h3⟩ := base hs
        exact ⟨_, x, [], by rw [h2, List.append_nil], .inr rfl, h3, .inl rfl⟩
      · rename_i c2 out1 contacted hs
        obtain ⟨hf2, x, h2, h3⟩ := base hs
        split
        · exact ⟨_, x, [], by rw [h2, List.append_nil], .inr rfl, h3, .inl rfl⟩
        · exact ⟨_, x, [], by rw [h2, List.append_nil], .inr rfl, h3, .inl rfl⟩
        · exact ⟨_, x, [], by rw [h2, List.append_nil], .inr rfl, h3, .inl rfl⟩
        · rename_i dss hdss
          rcases hf : fetchDhtV2 E c2 r cid (contacted.map (·.1)) dss with ⟨c3, out3, res3⟩
          obtain ⟨-, g1, -⟩ := fetchDhtV2_seen hf
          have hset : c2.settings.offerPrice = c.settings.offerPrice := by rw [hf2.1, hf1.1, hf0.1]
          rw [hset] at g1
          rw [hf]
          refine ⟨_, x, payments out3, by rw [payments_append, h2], .inr rfl, h3, ?_⟩
          rcases g1 with g1 | g1
          · exact .inl g1
          · refine .inr ⟨_, g1, fun hl => ?_⟩
            have := (collect_ok hdss).2.1 hl
            omega
  · intro h
    unfold findDhtV2
    cases hr : mget c.active (Ids.toStr gw) with
    | none => rfl
    | some r => exact absurd hr (h r)

/-- **C113 is false** of the price of a search in the DHT discovery: whatever price is configured, the first payment of a call is `num` times
a constant. -/
theorem C113_price_refuted (E : Env Sig) (c : Client Sig) (cid gw : Id) (num limit : Int) (r : Record) (hr : ActiveRecord c gw r)
    (to : Addr) (amount : Int) (l : List (Addr × Int)) (h : payments (findDhtV2 E c cid gw num limit).2.1 = (to, amount) :: l) :
    to = String.ofList r.address ∧ amount = num * 1000000000000000 := by
  obtain ⟨s, x, o, h1, h2, -, -⟩ := (C113_dhtV2_partial E c cid gw num limit).1 r hr
  rw [h] at h1
  rcases h2 with ⟨h2, h3, h4⟩ | h2
  · rw [h2, h3, h4] at h1
    cases h1
  · rw [h2] at h1
    simp only [List.cons_append, List.nil_append, List.cons.injEq, Prod.mk.injEq] at h1
    exact ⟨h1.1.1, h1.1.2⟩

/-- **C113 is false** of the payee in the DHT discovery: a gateway which answers that payment is required makes the client open a payment channel
to whomever it names and pay there the configured price of a search. -/
theorem C113_payee_refuted (E : Env Sig) (hpr : ProtocolOk E.pr) (c : Client Sig) (cid gw : Id) (hcid : cid.length = 32) (num : Int) (hnum : inI64 num)
    (limit : Int) (hn0 : inI64 (E.nonce 0)) (httl : inI64 (E.now + c.settings.ttl)) (r : Record) (hr : ActiveRecord c gw r)
    (p p1 : Payment.Mgr Sig) (hp : c.payment = some p) (ch : Addr) (v : Voucher Sig)
    (hpay : Payment.pay E.signVoucher p (String.ofList r.address) 0 (num * defaultSearchPrice) = (p1, .paid ch v))
    (payee : List Char) (ids : List Id) (answers : List Msg) (hlen : ids.length = answers.length) (missed : List Id)
    (hsearch : ∀ m, m.type = (clientDHTDiscoverRequestV2).code →
      decode clientDHTDiscoverRequestV2 m = .ok (some cid, E.nonce 0, E.now + c.settings.ttl, num, false, ch.toList, E.showVoucher v) →
      ∃ a, Answered E 0 r m a ∧ decode clientDHTDiscoverResponseV2 a = .ok (ids, answers, missed, E.nonce 0, true, payee))
    (hnew : p1.outbound (String.ofList payee) = none) (addr : Addr) (hchain : E.topups 1 0 = .executed addr)
    (hfunds : c.settings.searchPrice ≤ c.settings.topUpAmount) (hsign : ∀ b, (E.signVoucher b).isSome) :
    (String.ofList payee, c.settings.searchPrice) ∈ payments (findDhtV2 E c cid gw num limit).2.1 := by
  obtain ⟨m, hm, ht, -, -, hdm⟩ := C30_clientDHTDiscoverRequestV2 E.pr hpr (some cid) (E.nonce 0) (E.now + c.settings.ttl) num false ch.toList (E.showVoucher v)
    ⟨cid, rfl, hcid⟩ hn0 httl hnum
  obtain ⟨a, ha, had⟩ := hsearch m ht (hdm m.signature).2
  have hreq : requestDhtV2 E 0 r cid (E.nonce 0) (E.now + c.settings.ttl) num ch.toList (E.showVoucher v) =
      ([.asked r.netClient m], .ok (ids.zip answers, some payee)) := by
    unfold requestDhtV2
    dsimp only
    rw [hm, ask_answered ha]
    simp only [Res.bind_ok, had, ne_eq, not_true_eq_false, if_false, hlen, if_true]
  have hpm : paymentMgr E c = c := by
    unfold paymentMgr
    rw [hp]
  obtain ⟨sig, hsig⟩ := Option.isSome_iff_exists.1 (hsign ⟨addr, 0, 0, 0 + c.settings.searchPrice⟩)
  have htp : ∃ p2 ch2 v2, Payment.topupAndPay E.signVoucher c.settings.topUpAmount p1 (String.ofList payee) 0 c.settings.searchPrice (E.topups 1 0) (E.topups 1 1) =
      (p2, .paid ch2 v2) := by
    unfold Payment.topupAndPay
    rw [hchain]
    simp only [Payment.topup, hnew, Payment.topupCreate]
    unfold Payment.pay
    simp only [Payment.put, if_true]
    rw [if_neg (by simp; omega)]
    simp only [Payment.Chan.lane, Option.getD_none, Payment.newLane, hsig]
    exact ⟨_, _, _, rfl⟩
  obtain ⟨p2, ch2, v2, htp⟩ := htp
  have htap : topupAndPay E { c with payment := some p1 } 1 (String.ofList payee) c.settings.searchPrice =
      ({ c with payment := some p2 }, [.paid (String.ofList payee) c.settings.searchPrice v2], .ok (ch2, v2)) := by
    unfold topupAndPay paymentMgr
    dsimp only
    rw [htp]
  have hs : ∃ c2 out2 res, searchDhtV2 E { c with payment := some p1 } r cid num ch v =
      (c2, [.asked r.netClient m] ++ [.paid (String.ofList payee) c.settings.searchPrice v2] ++ out2, res) := by
    unfold searchDhtV2
    dsimp only
    rw [hreq]
    dsimp only
    rw [htap]
    exact ⟨_, _, _, rfl⟩
  obtain ⟨c2, out2, res, hs⟩ := hs
  have hmem : ∀ a b : List (Out Sig), (String.ofList payee, c.settings.searchPrice) ∈
      payments (a ++ ([.asked r.netClient m] ++ [.paid (String.ofList payee) c.settings.searchPrice v2] ++ out2) ++ b) := by
    intro a b
    simp [payments_append, payments]
  have hmem' : ∀ a : List (Out Sig), (String.ofList payee, c.settings.searchPrice) ∈
      payments (a ++ ([.asked r.netClient m] ++ [.paid (String.ofList payee) c.settings.searchPrice v2] ++ out2)) := by
    intro a
    simpa using hmem a []
  unfold findDhtV2
  rw [show mget c.active (Ids.toStr gw) = some r from hr]
  dsimp only
  rw [hpm, payFor_funded hp hpay]
  dsimp only
  rw [hs]
  cases res with
  | panic => exact hmem' _
  | err => exact hmem' _
  | ok contacted =>
    dsimp only
    split
    · exact hmem' _
    · exact hmem' _
    · exact hmem' _
    · exact hmem _ _

/-- A gateway that has the client pay "q". -/
example : ("q", 3) ∈ payments (findDhtV2 { exAnswers [exMsg clientDHTDiscoverResponseV2 ([], [], [], 7, true, ['q'])] with topups := fun _ _ => .executed "t" }
    exClient (exId 2) (exId 1) 1 3).2.1 := by
  have hdel := C30_clientDHTDiscoverResponseV2 Message.defaultProtocol defaultProtocolOk [] [] [] 7 true ['q']
    (fun i hi => by cases hi) (fun i hi => by cases hi) (fun i hi => by cases hi) ⟨by decide, by decide⟩
  obtain ⟨v, hv⟩ := exMgr_pay (1 * defaultSearchPrice) (by decide)
  exact C113_payee_refuted { exAnswers [exMsg clientDHTDiscoverResponseV2 ([], [], [], 7, true, ['q'])] with topups := fun _ _ => .executed "t" } defaultProtocolOk
    exClient (exId 2) (exId 1) (Merkle.exId_proper 2) 1 ⟨by decide, by decide⟩ 3 ⟨by decide, by decide⟩
    ⟨by decide, by decide⟩ exRecord exClient_active exMgr _ rfl "c" v hv ['q'] [] [] rfl []
    (fun m _ _ => ⟨_, exAnswers_answered hdel _ 0 m rfl, exMsg_decode hdel⟩) (by simp [exPay, Payment.pay, exMgr, Payment.put]; rfl) "t" rfl (by decide) (fun _ => rfl)

example : total (payments (findStandardV2 exStandard exClient (exId 2) (exId 1) 2).2.1) = 7 := by
  rw [exStandard_returns.2]
  rfl

end FcRetrieval.Client
