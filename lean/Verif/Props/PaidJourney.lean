import Verif.Lemmas.PaidJourney
import Verif.Props.Journey
/-!
# A client that pays finds what was published, search after search (C172)
-/
set_option linter.unusedSimpArgs false

namespace FcRetrieval.Journey
open FcRetrieval.Ids (Id)
open FcRetrieval.Merkle (Hash)
open FcRetrieval.Message (Msg)
open FcRetrieval.Register (Record)
open FcRetrieval.Payment (Addr Mgr Chan Voucher)

variable {Sig : Type}

/-- The first payment and what the gateway makes of it. -/
theorem first_paid {H H512 : Hash} {g0 : Gateway.Core Sig} {hist : List (Gateway.Env Sig × Gateway.Kind × Msg)} {G : Gateway.Env Sig}
    {C : Client.Env Sig} {c : Client.Client Sig} {gw : Id} {r : Record} {payer : Addr} {p : Mgr Sig} {a : Chan Sig}
    (ht : Trades H H512 g0 hist G C c gw r payer p a) {cid : Id} (hcid : cid.length = 32) {max : Int} {m1 : Msg}
    (hm1 : (Client.asked (Client.findStandardV2 C c cid gw max).2.1).head? = some (r.netClient, m1)) (hfunds : a.redeemed + c.settings.searchPrice ≤ a.balance) :
    ∃ os p1 w, SqlOffer.getOffers H G.order G.off G.now (Gateway.serveAll g0 hist).db cid = .ok (os, !os.isEmpty) ∧
      (∀ o ∈ os, cid ∈ o.cids ∧ ∃ e ∈ hist, Gateway.Vouched e.1 e.2.2 o) ∧
      Payment.pay C.signVoucher p (String.ofList r.address) 0 c.settings.searchPrice = (p1, .paid a.addr w) ∧
      Gateway.Pays G (Gateway.serveAll g0 hist) a.addr.toList (C.showVoucher w) (Gateway.serveAll g0 hist).searchPrice ∧
      InStep p1 (Gateway.serve G (Gateway.serveAll g0 hist) .standardV2 m1).1.payment (String.ofList r.address) (charged a c.settings.searchPrice w) ∧
      (Gateway.serve G (Gateway.serveAll g0 hist) .standardV2 m1).1.payment.address = (Gateway.serveAll g0 hist).payment.address := by
  obtain ⟨os, h1, h2⟩ := Gateway.C52_lookup H H512 G.order ht.order g0 ht.lived.fresh hist ht.lived.sound cid hcid G.off G.now ht.clock
  obtain ⟨p1, w, h3, h4, h5⟩ := pays_credited ht.signs ht.settles.verifies ht.inStep ht.price.1 hfunds
  obtain ⟨m, g1, -, g2⟩ := Client.standardV2_first C ht.protocol c cid gw hcid max ht.nonce ht.ttl r ht.active p p1 ht.wallet a.addr w h3
  rw [hm1] at g1
  cases g1
  have hb := Gateway.standardV2_books (E := G) (c := Gateway.serveAll g0 hist) g2 ht.inTime (by rw [ht.hash]; exact h1)
  rw [String.ofList_toList, ht.settles.reads, ht.settles.chain] at hb
  refine ⟨os, p1, w, h1, fun o ho => ⟨(h2 o ho).1, (h2 o ho).2.2⟩, h3, ⟨c.settings.searchPrice, ?_, ht.price.2⟩, by rw [hb]; exact h5, by
    rw [hb]; exact Gateway.recvCheck_frame.2⟩
  unfold Gateway.Credits
  rw [String.ofList_toList, ht.settles.reads, ht.settles.chain]
  exact h4

open Classical in
/-- **C172**: a client whose books agree with those of a gateway, and which has the funds, searches for a CID.  It gets, of the first `max` offers that the
gateway has for the CID, those that verify; it sends two messages and pays once for the search and once for the digests; the gateway credits both in full,
and the books agree again, with just these two amounts added, so that the next search can be paid in the same way. -/
theorem C172_search {H H512 : Hash} (hH : Merkle.Digest32 H) (hH512 : Merkle.Digest32 H512) {g0 : Gateway.Core Sig}
    {hist : List (Gateway.Env Sig × Gateway.Kind × Msg)} {G : Gateway.Env Sig} {m1 : Msg} {mid : List (Gateway.Env Sig × Gateway.Kind × Msg)} {G2 : Gateway.Env Sig}
    {C : Client.Env Sig} {c : Client.Client Sig} {gw : Id} {r : Record} {payer : Addr} {p : Mgr Sig} {a : Chan Sig}
    (ht : Trades H H512 g0 hist G C c gw r payer p a) (hg : Continues H H512 g0 hist G m1 mid G2 C c r payer a) {cid : Id} (hcid : cid.length = 32)
    {max : Int} (hmax : 1 ≤ max) (hm1 : (Client.asked (Client.findStandardV2 C c cid gw max).2.1).head? = some (r.netClient, m1))
    (hfunds : a.redeemed + c.settings.searchPrice + max * c.settings.offerPrice ≤ a.balance) :
    ∃ os, SqlOffer.getOffers H G.order G.off G.now (Gateway.serveAll g0 hist).db cid = .ok (os, !os.isEmpty) ∧
      (os ≠ [] → (∀ o ∈ os.take max.toNat, G2.now - G2.off < o.expiry) →
        ∃ m2 p2 a2, (Client.findStandardV2 C c cid gw max).2.2 =
            .ok (((os.take max.toNat).map (fun o => Offer.subOffer H o cid)).filter (fun s => decide (Client.Verified C s))) ∧
          Client.asked (Client.findStandardV2 C c cid gw max).2.1 = [(r.netClient, m1), (r.netClient, m2)] ∧
          Client.payments (Client.findStandardV2 C c cid gw max).2.1 = [(String.ofList r.address, c.settings.searchPrice),
            (String.ofList r.address, (os.take max.toNat).length * c.settings.offerPrice)] ∧
          (Client.findStandardV2 C c cid gw max).1 = { c with payment := some p2 } ∧
          InStep p2 (Gateway.serveAll g0 (hist ++ (G, .standardV2, m1) :: mid ++ [(G2, .standardOffer, m2)])).payment (String.ofList r.address) a2 ∧
          a2.addr = a.addr ∧ a2.balance = a.balance ∧
          a2.redeemed = a.redeemed + c.settings.searchPrice + (os.take max.toNat).length * c.settings.offerPrice) := by
  have hop := hg.price.1
  have hmaxop : 0 ≤ max * c.settings.offerPrice := Int.mul_nonneg (by omega) (by omega)
  obtain ⟨os, p1, w, h1, h2, h3, h4, h5, h6⟩ := first_paid ht hcid hm1 (by omega)
  refine ⟨os, h1, fun hne hexp => ?_⟩
  -- what others ask in between
  have hbes := Gateway.serveAll_beside a.addr mid (Gateway.serve G (Gateway.serveAll g0 hist) .standardV2 m1).1 hg.alone
  have hstate : Gateway.serveAll (Gateway.serve G (Gateway.serveAll g0 hist) .standardV2 m1).1 mid = Gateway.serveAll g0 (hist ++ (G, .standardV2, m1) :: mid) := by
    rw [Gateway.serveAll_append]
    rfl
  rw [hstate] at hbes
  generalize hq : (Gateway.serveAll g0 (hist ++ (G, .standardV2, m1) :: mid)).payment = q at hbes
  have hin : InStep p1 q (String.ofList r.address) (charged a c.settings.searchPrice w) := by
    have hbk : books q (charged a c.settings.searchPrice w).addr =
        books (Gateway.serve G (Gateway.serveAll g0 hist) .standardV2 m1).1.payment (charged a c.settings.searchPrice w).addr := by
      unfold books
      rw [show (charged a c.settings.searchPrice w).addr = a.addr from rfl, hbes.1]
    exact ⟨h5.account, by rw [hbk]; exact h5.total, by rw [hbk]; exact h5.funds, by rw [hbk]; exact h5.amounts, by rw [hbk]; exact h5.nonces⟩
  have haddr : q.address = (Gateway.serveAll g0 hist).payment.address := hbes.2.trans h6
  -- the second payment
  generalize hn : (os.take max.toNat).length = n
  have hn1 : 1 ≤ n := by
    rw [← hn, List.length_take]
    have : 0 < os.length := List.length_pos_iff.2 hne
    omega
  have hn2 : (n : Int) ≤ max := by
    rw [← hn, List.length_take]
    omega
  have hnop : (n : Int) * c.settings.offerPrice ≤ max * c.settings.offerPrice := Int.mul_le_mul_of_nonneg_right hn2 (by omega)
  have hpos : 0 < (n : Int) * c.settings.offerPrice := Int.mul_pos (by omega) hop
  obtain ⟨p2, w2, k1, k2, k3⟩ := pays_credited (payer := payer) ht.signs hg.settles.verifies hin hpos (by
    show a.redeemed + c.settings.searchPrice + (n : Int) * c.settings.offerPrice ≤ a.balance
    omega)
  have hchain : G2.chain a.addr = some ⟨a.balance, .key q.address, .key payer⟩ := by rw [haddr]; exact hg.settles.chain
  have hmem : (G, Gateway.Kind.standardV2, m1) ∈ hist ++ (G, .standardV2, m1) :: mid := by simp
  have hfit : ∀ o ∈ os, Offer.SubInRange (Offer.subOffer H o cid) ∧ Client.Whole (Offer.subOffer H o cid) ∧ o.providerID ≠ none := by
    intro o ho
    obtain ⟨-, e, he, hv⟩ := h2 o ho
    have hb := Gateway.vouched_built hv
    have := Offer.subOffer_fits hH hb.1 (ht.lived.sizes e he o hv) hcid
    refine ⟨this.1, this.2, ?_⟩
    obtain ⟨⟨pid, hp, -⟩, -⟩ := hb.1
    rw [hp]
    simp
  have hworth2 : Gateway.Pays G2 (Gateway.serveAll g0 (hist ++ (G, .standardV2, m1) :: mid)) a.addr.toList (C.showVoucher w2)
      ((Gateway.serveAll g0 (hist ++ (G, .standardV2, m1) :: mid)).offerPrice * (os.take max.toNat).length) := by
    refine ⟨(n : Int) * c.settings.offerPrice, ?_, ?_⟩
    · unfold Gateway.Credits
      rw [String.ofList_toList, hg.settles.reads, hchain, hq]
      exact k2
    · rw [hn, Int.mul_comm]
      exact Int.mul_le_mul_of_nonneg_left hg.price.2 (by omega)
  obtain ⟨m, m2, g1, g2, g3⟩ := Client.standardV2_honest_run C ht.protocol c cid gw hcid max hmax ht.nonce hg.nonce ht.ttl r ht.active p p1 p2 ht.wallet a.addr a.addr w w2
    h3 G G2 (Gateway.serveAll g0 hist) _ ht.behind hg.behind ht.inTime hg.inTime h4 os hne (!os.isEmpty) (by rw [ht.hash]; exact h1) (fun o ho => (hfit o ho).2.2)
    (by rw [hn]; exact k1) hworth2
    (Gateway.found_fetched hH512 ht.lived.fresh hg.lived.sound (hg.lived.sound.1 _ hmem).2.1 hg.hash ht.order hg.order ht.clock hg.clock hcid h1 hexp)
    (by
      intro x hx
      obtain ⟨o, ho, rfl⟩ := List.mem_map.1 hx
      rw [hg.hash]
      exact (hfit o (List.mem_of_mem_take ho)).1)
    (by
      intro x hx
      obtain ⟨o, ho, rfl⟩ := List.mem_map.1 hx
      rw [hg.hash]
      exact (hfit o (List.mem_of_mem_take ho)).2.1) hg.keys
  have hmm : m = m1 := by
    rw [g3] at hm1
    simpa [Client.asked] using hm1
  subst hmm
  refine ⟨m2, p2, charged (charged a c.settings.searchPrice w) ((n : Int) * c.settings.offerPrice) w2, ?_, ?_, ?_, ?_, ?_, rfl, rfl, rfl⟩
  · rw [g3, hg.hash]
  · rw [g3]
    rfl
  · rw [g3, hn]
    rfl
  · rw [g3]
  · have hb := Gateway.standardOffer_books (E := G2) (c := Gateway.serveAll g0 (hist ++ (G, .standardV2, m) :: mid)) g2 hg.inTime
    rw [String.ofList_toList, hg.settles.reads, hchain, hq] at hb
    rw [Gateway.serveAll_append]
    show InStep p2 (Gateway.serve G2 (Gateway.serveAll g0 (hist ++ (G, .standardV2, m) :: mid)) .standardOffer m2).1.payment _ _
    rw [hb]
    exact k3

/-- **C172**, nothing there: if the gateway has nothing for the CID the client gets no offers, and pays and asks once. -/
theorem C172_nothing {H H512 : Hash} {g0 : Gateway.Core Sig} {hist : List (Gateway.Env Sig × Gateway.Kind × Msg)} {G : Gateway.Env Sig} {m1 : Msg}
    {C : Client.Env Sig} {c : Client.Client Sig} {gw : Id} {r : Record} {payer : Addr} {p : Mgr Sig} {a : Chan Sig}
    (ht : Trades H H512 g0 hist G C c gw r payer p a) {cid : Id} (hcid : cid.length = 32) {max : Int}
    (hm1 : (Client.asked (Client.findStandardV2 C c cid gw max).2.1).head? = some (r.netClient, m1)) (hfunds : a.redeemed + c.settings.searchPrice ≤ a.balance)
    (hnone : SqlOffer.getOffers H G.order G.off G.now (Gateway.serveAll g0 hist).db cid = .ok ([], false)) :
    ∃ p1 a1, (Client.findStandardV2 C c cid gw max).2.2 = .ok [] ∧ Client.asked (Client.findStandardV2 C c cid gw max).2.1 = [(r.netClient, m1)] ∧
      Client.payments (Client.findStandardV2 C c cid gw max).2.1 = [(String.ofList r.address, c.settings.searchPrice)] ∧
      (Client.findStandardV2 C c cid gw max).1 = { c with payment := some p1 } ∧
      InStep p1 (Gateway.serveAll g0 (hist ++ [(G, .standardV2, m1)])).payment (String.ofList r.address) a1 ∧
      a1.addr = a.addr ∧ a1.balance = a.balance ∧ a1.redeemed = a.redeemed + c.settings.searchPrice := by
  obtain ⟨os, p1, w, h1, h2, h3, h4, h5, h6⟩ := first_paid ht hcid hm1 hfunds
  obtain ⟨m, hr⟩ := Client.standardV2_none_run C ht.protocol c cid gw hcid max ht.nonce ht.ttl r ht.active p p1 ht.wallet a.addr w h3 G _ ht.behind ht.inTime h4
    (by rw [ht.hash]; exact hnone)
  have hmm : m = m1 := by
    rw [hr] at hm1
    simpa [Client.asked] using hm1
  subst hmm
  rw [hr, Gateway.serveAll_append]
  exact ⟨p1, _, rfl, rfl, rfl, rfl, h5, rfl, rfl, rfl⟩

open Classical in
/-- **C172**, what was published: an offer of a provider, acknowledged by the gateway some time before, is among what the paid search finds for each of its
CIDs, if it has not expired, nobody else publishes in the name of the provider, and the gateway has no more offers for the CID than the client asks for. -/
theorem C172_published {H H512 : Hash} (hH : Merkle.Digest32 H) (hH512 : Merkle.Digest32 H512) {g0 : Gateway.Core Sig}
    {h1 h2 : List (Gateway.Env Sig × Gateway.Kind × Msg)} {E : Gateway.Env Sig} {kind : Gateway.Kind} {req m' : Msg} {G : Gateway.Env Sig} {m1 : Msg}
    {mid : List (Gateway.Env Sig × Gateway.Kind × Msg)} {G2 : Gateway.Env Sig} {C : Client.Env Sig} {c : Client.Client Sig} {gw : Id} {r : Record} {payer : Addr}
    {p : Mgr Sig} {a : Chan Sig} (hk : kind = .publishDht ∨ kind = .publishGroup)
    (hm : .message m' ∈ (Gateway.serve E (Gateway.serveAll g0 h1) kind req).2) {pid : Id} {o : Offer.CidOffer} (ho : Gateway.Publishes E req (some pid) o)
    (hpid : o.providerID = some pid)
    (ht : Trades H H512 g0 (h1 ++ (E, kind, req) :: h2) G C c gw r payer p a) (hg : Continues H H512 g0 (h1 ++ (E, kind, req) :: h2) G m1 mid G2 C c r payer a)
    (hC : C.H = H) (hun : Unforged C (some pid) (h1 ++ (E, kind, req) :: h2)) (hrec : ∃ rec, C.provider pid = some rec ∧ Client.CompleteProvider rec)
    {cid : Id} (hcid : cid ∈ o.cids) (hlen : cid.length = 32) {max : Int} (hmax : 1 ≤ max)
    (hm1 : (Client.asked (Client.findStandardV2 C c cid gw max).2.1).head? = some (r.netClient, m1))
    (hfunds : a.redeemed + c.settings.searchPrice + max * c.settings.offerPrice ≤ a.balance)
    (hexp : G.now - G.off < o.expiry) (hyear : o.expiry ≤ 253402300799)
    (hall : ∀ os b, SqlOffer.getOffers H G.order G.off G.now (Gateway.serveAll g0 (h1 ++ (E, kind, req) :: h2)).db cid = .ok (os, b) →
      (os.length : Int) ≤ max ∧ ∀ o ∈ os, G2.now - G2.off < o.expiry) :
    ∃ l, (Client.findStandardV2 C c cid gw max).2.2 = .ok l ∧ ∃ s ∈ l, OnTerms (some pid) cid o.price o.expiry o.qos s ∧ Client.Genuine C s := by
  obtain ⟨os', k1, o', k2, k3⟩ := Gateway.C98_publish H H512 G.order ht.order g0 ht.lived.fresh h1 h2 E kind req m' ht.lived.sound hk hm (some pid) o ho cid hcid G.off G.now
    ht.clock hexp hyear
  obtain ⟨os, f1, f2⟩ := C172_search hH hH512 ht hg hlen hmax hm1 hfunds
  rw [k1] at f1
  simp only [Res.ok.injEq, Prod.mk.injEq] at f1
  obtain ⟨rfl, -⟩ := f1
  obtain ⟨e1, e2⟩ := hall _ _ k1
  obtain ⟨m2, p2, a2, g1, -⟩ := f2 (by intro h; rw [h] at k2; cases k2) (fun o ho => e2 o (List.mem_of_mem_take ho))
  rw [List.take_of_length_le (by omega)] at g1
  obtain ⟨os2, l1, l2⟩ := Gateway.C52_lookup H H512 G.order ht.order g0 ht.lived.fresh _ ht.lived.sound cid hlen G.off G.now ht.clock
  rw [k1] at l1
  simp only [Res.ok.injEq, Prod.mk.injEq] at l1
  obtain ⟨rfl, -⟩ := l1
  obtain ⟨hc, -, e, he, hv⟩ := l2 o' k2
  simp only [Offer.terms, Prod.mk.injEq] at k3
  have hp' : o'.providerID = some pid := k3.1.trans hpid
  have hgen : Client.Genuine C (Offer.subOffer H o' cid) := by
    rw [← hC]
    exact genuine_of hun he (by rw [(ht.lived.sound.1 e he).1, hC]) hv hp' hc
  obtain ⟨rec, hr1, hr2⟩ := hrec
  refine ⟨_, g1, Offer.subOffer H o' cid, ?_, ⟨hp', rfl, k3.2.2.1, k3.2.2.2.1, k3.2.2.2.2⟩, hgen⟩
  refine List.mem_filter.2 ⟨List.mem_map.2 ⟨o', k2, rfl⟩, ?_⟩
  simp only [decide_eq_true_eq]
  exact ⟨hgen, pid, rec, hp', hr1, hr2⟩

/-- **C172**, between two searches: whatever the gateway serves, the books stay in step, as long as nobody else brings a voucher for the channel of this
client. -/
theorem C172_between {g0 : Gateway.Core Sig} {hist mid : List (Gateway.Env Sig × Gateway.Kind × Msg)} {p : Mgr Sig} {recipient : Addr} {a : Chan Sig}
    (hin : InStep p (Gateway.serveAll g0 hist).payment recipient a) (hal : ∀ e ∈ mid, ∀ v, GatewayLife.carries e.2.1 e.2.2 ≠ some (a.addr.toList, v)) :
    InStep p (Gateway.serveAll g0 (hist ++ mid)).payment recipient a ∧
      (Gateway.serveAll g0 (hist ++ mid)).payment.address = (Gateway.serveAll g0 hist).payment.address := by
  have hbes := Gateway.serveAll_beside a.addr mid (Gateway.serveAll g0 hist) hal
  rw [← Gateway.serveAll_append] at hbes
  have hbk : books (Gateway.serveAll g0 (hist ++ mid)).payment a.addr = books (Gateway.serveAll g0 hist).payment a.addr := by
    unfold books
    rw [hbes.1]
  exact ⟨⟨hin.account, by rw [hbk]; exact hin.total, by rw [hbk]; exact hin.funds, by rw [hbk]; exact hin.amounts, by rw [hbk]; exact hin.nonces⟩, hbes.2⟩

/-! ## A concrete search -/

/-- Vouchers as text: lane, number and amount in unary, and the channel. -/
def exShow (w : Voucher Unit) : List Char :=
  List.replicate w.body.lane 'l' ++ (List.replicate w.body.nonce 'n' ++ ((if w.body.amount < 0 then '-' else '+') ::
    (List.replicate w.body.amount.natAbs 'a' ++ '|' :: w.body.channelAddr.toList)))

def exReadUnary (c : Char) (s : List Char) : Nat × List Char := ((s.takeWhile (· == c)).length, s.dropWhile (· == c))

def exReadBack (s : List Char) : Option (Voucher Unit) :=
  let l := exReadUnary 'l' s
  let n := exReadUnary 'n' l.2
  match n.2 with
  | [] => none
  | sign :: t =>
    let a := exReadUnary 'a' t
    some ⟨⟨String.ofList (a.2.drop 1), l.1, n.1, if sign = '-' then -(a.1 : Int) else a.1⟩, ()⟩

theorem exReadUnary_eq (c d : Char) (hd : d ≠ c) (t : List Char) : ∀ n, exReadUnary c (List.replicate n c ++ d :: t) = (n, d :: t)
  | 0 => by simp [exReadUnary, hd]
  | n + 1 => by
    have := exReadUnary_eq c d hd t n
    unfold exReadUnary at this ⊢
    simp only [Prod.mk.injEq] at this
    rw [List.replicate_succ, List.cons_append, List.takeWhile_cons_of_pos (by simp), List.dropWhile_cons_of_pos (by simp), List.length_cons, this.1, this.2]

theorem exRead_show (w : Voucher Unit) : exReadBack (exShow w) = some w := by
  obtain ⟨⟨ch, lane, nonce, amount⟩, ⟨⟩⟩ := w
  unfold exReadBack exShow
  dsimp only
  have h1 : ∀ (sign : Char), sign = '-' ∨ sign = '+' → ∀ t, exReadUnary 'l' (List.replicate lane 'l' ++ (List.replicate nonce 'n' ++ sign :: t)) =
      (lane, List.replicate nonce 'n' ++ sign :: t) := by
    intro sign hs t
    cases nonce with
    | zero => exact exReadUnary_eq 'l' sign (by rcases hs with rfl | rfl <;> decide) t lane
    | succ k => exact exReadUnary_eq 'l' 'n' (by decide) _ lane
  have hs : ∀ b : Prop, [Decidable b] → ((if b then '-' else '+') = '-' ∨ (if b then '-' else '+') = '+') := by
    intro b _
    split <;> simp
  rw [h1 _ (hs _), exReadUnary_eq 'n' _ (by split <;> decide)]
  dsimp only
  rw [exReadUnary_eq 'a' '|' (by decide)]
  simp only [List.drop_succ_cons, List.drop_zero, String.ofList_toList, Option.some.injEq, Voucher.mk.injEq, Payment.VBody.mk.injEq, true_and, and_true]
  by_cases h : amount < 0
  · simp only [h, if_true]
    omega
  · simp only [h, if_false, Char.reduceEq]
    omega

/-- A gateway that reads these vouchers and sees the channel of the client. -/
def exShop : Gateway.Env Unit :=
  { exG with H512 := Merkle.toyHash, readVoucher := exReadBack, chain := fun _ => some ⟨100000000000000000, .key "gw", .key "cl"⟩ }
/-- A client of the gateway, which has served `hist` when it gets the first message and `hist2` when it gets the second. -/
def exBuyer (hist hist2 : List (Gateway.Env Unit × Gateway.Kind × Msg)) : Client.Env Unit :=
  { Client.exEnv with
    provider := fun i => if i = Merkle.exId 1 then some Client.exRecord else none
    showVoucher := exShow
    exchange := fun n _ m => (Client.clientKind m.type).bind (fun k =>
      Client.reply (Gateway.serve exShop (Gateway.serveAll Gateway.exFresh (if n = 0 then hist else hist2)) k m).2) }

theorem exBuyer_behind (hist hist2 : List (Gateway.Env Unit × Gateway.Kind × Msg)) (n : Nat) :
    Client.Behind (exBuyer hist hist2) Client.exRecord n exShop (Gateway.serveAll Gateway.exFresh (if n = 0 then hist else hist2)) := by
  generalize hh : (if n = 0 then hist else hist2) = h
  have hv := exVersion h Gateway.exFresh
  obtain ⟨-, -, hi, hk⟩ := Gateway.C50_search_price Gateway.exFresh h
  refine ⟨fun m => by rw [← hh]; rfl, rfl, Crypto.toy_correct, by rw [hi]; rfl, by rw [hi]; exact Merkle.exId_proper 1, by rw [hk]; exact Offer.exKey_private,
    ?_, ⟨_, Client.exRecord_key, rfl, by rw [hk]; rfl⟩, Codecs.defaultProtocolOk⟩
  intro b
  rw [hk, hv]
  exact Gateway.exCore_signs b

/-- The first message of the client. -/
def exFirst : Msg :=
  match Wire.encode Codecs.clientStandardDiscoverRequestV2 Message.defaultProtocol (some (Merkle.exId 2), 7, 1100, "c".toList, exShow ⟨⟨"c", 0, 0, 3⟩, ()⟩) with
  | .ok m => m
  | _ => ⟨0, 0, none, none, []⟩

/-- The account of the client. -/
def exAccount : Chan Unit := ⟨"c", 100000000000000000, 0, fun _ => none⟩

theorem exBuyer_first (hist hist2 : List (Gateway.Env Unit × Gateway.Kind × Msg)) (max : Int) :
    (Client.asked (Client.findStandardV2 (exBuyer hist hist2) Client.exClient (Merkle.exId 2) (Merkle.exId 1) max).2.1).head? = some (Client.exRecord.netClient, exFirst) ∧
      exFirst.type = Codecs.clientStandardDiscoverRequestV2.code := by
  obtain ⟨m, h1, h2, h3⟩ := Client.standardV2_first (exBuyer hist hist2) Codecs.defaultProtocolOk Client.exClient (Merkle.exId 2) (Merkle.exId 1) (Merkle.exId_proper 2) max
    (show inI64 7 from ⟨by decide, by decide⟩) (show inI64 1100 from ⟨by decide, by decide⟩) Client.exRecord Client.exClient_active Client.exMgr _ rfl "c" ⟨⟨"c", 0, 0, 3⟩, ()⟩ rfl
  have h2' : Wire.encode Codecs.clientStandardDiscoverRequestV2 Message.defaultProtocol (some (Merkle.exId 2), 7, 1100, "c".toList, exShow ⟨⟨"c", 0, 0, 3⟩, ()⟩) = .ok m := h2
  have he : exFirst = m := by
    unfold exFirst
    rw [h2']
  rw [he]
  exact ⟨h1, (Gateway.decode_inv h3).1⟩

/-- What the gateway served: a group offer, the search, and a message that is none. -/
def exBefore (req : Msg) : List (Gateway.Env Unit × Gateway.Kind × Msg) := [(exShop, .publishGroup, req)]
def exAfter (req : Msg) : List (Gateway.Env Unit × Gateway.Kind × Msg) := exBefore req ++ (exShop, .standardV2, exFirst) :: [(exShop, .standard, exFirst)]

theorem exFirst_publishes {q : Option Id} {o : Offer.CidOffer} : ¬ Gateway.Publishes exShop exFirst q o := by
  have ht := (exBuyer_first [] [] 1).2
  rintro ⟨n, ⟨os, hd, -⟩ | hd⟩
  all_goals
    have := (Gateway.decode_inv hd).1
    rw [ht] at this
    cases this

theorem exLived_shop {hist : List (Gateway.Env Unit × Gateway.Kind × Msg)} {o : Offer.CidOffer} (ho : o.cids.length < 2 ^ 63)
    (h : ∀ e ∈ hist, e.1 = exShop ∧ ∀ q o', Gateway.Publishes exShop e.2.2 q o' → o' = o) : Lived Merkle.toyHash Merkle.toyHash Gateway.exFresh hist := by
  have one : ∀ o', (∃ e ∈ hist, Gateway.Vouched e.1 e.2.2 o') → o' = o := by
    rintro o' ⟨e, he, q, k, hp, -⟩
    rw [(h e he).1] at hp
    exact (h e he).2 q o' hp
  refine ⟨rfl, ⟨fun e he => ?_, ?_⟩, fun e he o' hv => by rw [one o' ⟨e, he, hv⟩]; exact ho⟩
  · rw [(h e he).1]
    exact ⟨rfl, rfl, Gateway.exEnv_works⟩
  · intro l hl x hx y hy b b' hb hb' _
    rw [one x (hl x hx)] at hb
    rw [one y (hl y hy), hb] at hb'
    cases hb'
    rfl

theorem exShop_ready : Ready exShop Gateway.exFresh Provider.exEnv (Provider.serveAll Provider.newCore Provider.exReady).1 where
  prims := rfl
  hash := rfl
  correct := Crypto.toy_correct
  protocol := Codecs.defaultProtocolOk
  works := Gateway.exEnv_works
  signs := Gateway.exCore_signs
  proper := Merkle.exId_proper 1
  knows := ⟨_, Gateway.exRecord, Gateway.exPub, _, _, exReady.1, exReady.2, by simp [exShop, exG], Gateway.exRecord_key, Offer.exKey_private, rfl, by decide +kernel⟩

theorem exShop_settles (hist hist2 : List (Gateway.Env Unit × Gateway.Kind × Msg)) : Settles (exBuyer hist hist2) exShop "cl" "gw" "c" 100000000000000000 :=
  ⟨rfl, exRead_show, fun _ _ _ => rfl⟩

/-- A request that publishes, and what it leaves behind. -/
theorem exShop_request : ∃ req o m', Wire.decode (Codecs.providerPublishGroupOfferRequest Merkle.toyHash) req = .ok (some (Merkle.exId 1), 1, some o) ∧
    o.cids = [Merkle.exId 2, Merkle.exId 5] ∧ o.providerID = some (Merkle.exId 1) ∧ o.price = 5 ∧ o.expiry = 2000 ∧ o.qos = 3 ∧
    .message m' ∈ (Gateway.serve exShop Gateway.exFresh .publishGroup req).2 ∧
    SqlOffer.getOffers Merkle.toyHash exShop.order exShop.off exShop.now (Gateway.serve exShop Gateway.exFresh .publishGroup req).1.db (Merkle.exId 2) = .ok ([o], true) := by
  obtain ⟨o, hmade, hsent⟩ := group_sent Provider.exReady_sane (Admin.exBehindProvider _ _) Admin.exWorld
    Provider.exReady_use.1 Admin.exIds (by decide) ⟨by decide, by decide⟩ (by decide) Admin.exGroup_succeeds
  obtain ⟨gid, req, -, -, g3, g4⟩ := hsent Gateway.exRecord (by simp [Provider.exEnv, Provider.exAlone])
  obtain ⟨pub, ha, hv⟩ := authentic_of exShop_ready.prims exShop_ready.correct exShop_ready.knows g4
  have hsig := made_signed hmade hv
  rw [exReady.1] at g3 ha
  obtain ⟨k, v, -, e1, e2, e3, e4, e5, -⟩ := hmade
  have hstore : Gateway.Storable exShop pub o := ⟨hsig, by rw [e3]; decide, by rw [e5]; decide⟩
  have hs := Gateway.C52_publishGroup_served exShop exShop_ready.works exShop_ready.protocol Gateway.exFresh exShop_ready.signs exShop_ready.proper req _ _ o pub g3 ha
  rw [if_pos hstore] at hs
  obtain ⟨db, m', d, k1, k2, k3, -, -⟩ := hs
  obtain ⟨hn, o', ho', hb⟩ := Gateway.publishGroup_req g3
  cases ho'
  have hpid : o.providerID = some (Merkle.exId 1) := by rw [e1, exReady.1]
  obtain ⟨db', l1, l, l2, l3⟩ := SqlOffer.one_add Merkle.toyHash exShop.H512 exShop.order (fun _ => .refl _) .group o (hb (by rw [hpid]; simp)) hstore.2.1 hstore.2.2
    (Merkle.exId 2) (Merkle.exId_proper 2) exShop.off exShop.now (by decide)
  have k1' : SqlOffer.run exShop.H512 SqlOffer.newDB [(.group, o)] = .ok (db, [true]) := k1
  rw [k1'] at l1
  cases l1
  have hcount : List.count (Merkle.exId 2) [Merkle.exId 2, Merkle.exId 5] = 1 := by decide
  rw [e4, e2, hcount, if_pos ⟨by decide, by decide⟩] at l3
  subst l3
  refine ⟨req, o, m', g3, e2, hpid, e3, e4, e5, ?_, ?_⟩
  · rw [show Gateway.serve exShop Gateway.exFresh .publishGroup req = Gateway.publishGroup exShop Gateway.exFresh req from rfl, k3]
    simp
  · rw [show Gateway.serve exShop Gateway.exFresh .publishGroup req = Gateway.publishGroup exShop Gateway.exFresh req from rfl, k2]
    exact l2

theorem exTrades {hist hist2 : List (Gateway.Env Unit × Gateway.Kind × Msg)} {o : Offer.CidOffer} (ho : o.cids.length < 2 ^ 63)
    (hc : ∀ e ∈ hist, ∀ v, GatewayLife.carries e.2.1 e.2.2 ≠ some ("c".toList, v))
    (h : ∀ e ∈ hist, e.1 = exShop ∧ ∀ q o', Gateway.Publishes exShop e.2.2 q o' → o' = o) :
    Trades Merkle.toyHash Merkle.toyHash Gateway.exFresh hist exShop (exBuyer hist hist2) Client.exClient (Merkle.exId 1) Client.exRecord "cl" Client.exMgr exAccount := by
  have hb := Gateway.serveAll_beside "c" hist Gateway.exFresh hc
  have haddr : (Gateway.serveAll Gateway.exFresh hist).payment.address = "gw" := hb.2
  have hbk : books (Gateway.serveAll Gateway.exFresh hist).payment exAccount.addr = ⟨"", 0, 0, fun _ => none⟩ := by
    unfold books
    rw [show exAccount.addr = "c" from rfl, hb.1]
    rfl
  refine ⟨exLived_shop ho h, Client.exClient_active, exBuyer_behind _ _ 0, rfl, Codecs.defaultProtocolOk, show inI64 7 from ⟨by decide, by decide⟩,
    show inI64 1100 from ⟨by decide, by decide⟩, show (1000 : Int) ≤ 1100 by decide, by decide, fun _ => .refl _, rfl, fun _ => rfl,
    ⟨rfl, by rw [hbk]; rfl, by rw [hbk]; decide, by rw [hbk]; intro i; rfl, by rw [hbk]; intro i; rfl⟩, by rw [haddr]; exact exShop_settles _ _, by decide, ?_⟩
  rw [(Gateway.C50_search_price Gateway.exFresh hist).1]
  decide

theorem exContinues {req : Msg} {o : Offer.CidOffer} (ho : o.cids.length < 2 ^ 63) (h : ∀ q o', Gateway.Publishes exShop req q o' → o' = o) :
    Continues Merkle.toyHash Merkle.toyHash Gateway.exFresh (exBefore req) exShop exFirst [(exShop, .standard, exFirst)] exShop (exBuyer (exBefore req) (exAfter req))
      Client.exClient Client.exRecord "cl" exAccount := by
  have hb := Gateway.serveAll_beside "c" (exBefore req) Gateway.exFresh (by
    intro e he v
    simp only [exBefore, List.mem_cons, List.not_mem_nil, or_false] at he
    subst he
    simp [GatewayLife.carries])
  have haddr : (Gateway.serveAll Gateway.exFresh (exBefore req)).payment.address = "gw" := hb.2
  refine ⟨exLived_shop ho ?_, exBuyer_behind _ _ 2, rfl, ?_, show inI64 9 from ⟨by decide, by decide⟩, show (1000 : Int) ≤ 1100 by decide, by decide, fun _ => .refl _,
    by rw [haddr]; exact exShop_settles _ _, ?_, by decide, ?_⟩
  · intro e he
    simp only [exBefore, List.cons_append, List.nil_append, List.mem_cons, List.not_mem_nil, or_false] at he
    rcases he with rfl | rfl | rfl
    · exact ⟨rfl, h⟩
    · exact ⟨rfl, fun q o' hp => absurd hp exFirst_publishes⟩
    · exact ⟨rfl, fun q o' hp => absurd hp exFirst_publishes⟩
  · intro i rec hr
    simp only [exBuyer] at hr
    split at hr
    · cases hr
      exact ⟨by decide, by decide⟩
    · cases hr
  · intro e he v
    simp only [List.mem_cons, List.not_mem_nil, or_false] at he
    subst he
    simp [GatewayLife.carries]
  · have hp : (Gateway.serveAll Gateway.exFresh (exBefore req ++ (exShop, .standardV2, exFirst) :: [(exShop, .standard, exFirst)])).offerPrice = Gateway.exFresh.offerPrice := by
      simp only [exBefore, List.cons_append, List.nil_append, Gateway.serveAll]
      rw [(Gateway.serve_frame _ _ .standard _).2.2.2.2.2.1 (by simp), (Gateway.serve_frame _ _ .standardV2 _).2.2.2.2.2.1 (by simp),
        (Gateway.serve_frame _ _ .publishGroup _).2.2.2.2.2.1 (by simp)]
    rw [hp]
    decide

/-- A client pays 3 for a search and 2 for one digest, gets the offer that was published, and the gateway has credited 5. -/
example : ∃ req, ∃ l, (Client.findStandardV2 (exBuyer (exBefore req) (exAfter req)) Client.exClient (Merkle.exId 2) (Merkle.exId 1) 4).2.2 = .ok l ∧
    (∃ s ∈ l, OnTerms (some (Merkle.exId 1)) (Merkle.exId 2) 5 2000 3 s) ∧
    Client.payments (Client.findStandardV2 (exBuyer (exBefore req) (exAfter req)) Client.exClient (Merkle.exId 2) (Merkle.exId 1) 4).2.1 = [("p", 3), ("p", 2)] ∧
    ∃ m2 p2 a2, InStep p2 (Gateway.serveAll Gateway.exFresh (exAfter req ++ [(exShop, .standardOffer, m2)])).payment "p" a2 ∧ a2.redeemed = 5 := by
  obtain ⟨req, o, m', hd, e1, e2, e3, e4, e5, hm, hget⟩ := exShop_request
  have hlen : o.cids.length < 2 ^ 63 := by rw [e1]; decide
  have hone : ∀ q o', Gateway.Publishes exShop req q o' → o' = o := fun q o' hp => (exGroup_publishes hd (show Gateway.Publishes exG req q o' from hp)).2
  have ht := exTrades (hist := exBefore req) (hist2 := exAfter req) hlen (by
    intro e he v
    simp only [exBefore, List.mem_cons, List.not_mem_nil, or_false] at he
    subst he
    simp [GatewayLife.carries]) (by
    intro e he
    simp only [exBefore, List.mem_cons, List.not_mem_nil, or_false] at he
    subst he
    exact ⟨rfl, hone⟩)
  have hg := exContinues hlen hone
  have hfirst := (exBuyer_first (exBefore req) (exAfter req) 4).1
  obtain ⟨l, k1, s, k2, k3, -⟩ := C172_published (h1 := []) (h2 := []) Merkle.toyHash_digest Merkle.toyHash_digest (.inr rfl) hm ⟨1, .inr hd⟩ e2 ht hg rfl
    (by
      refine ⟨?_, ?_, ?_⟩
      all_goals
        intro e he
        simp only [List.nil_append, List.mem_cons, List.not_mem_nil, or_false] at he
        subst he
      · rfl
      · intro o q k hp _ _ _
        exact (exGroup_publishes hd (show Gateway.Publishes exG req q o from hp)).1
      · intro p r hp hr
        cases hp
        simp only [exShop, exG, if_true, Option.some.injEq] at hr
        subst hr
        exact ⟨Client.exRecord, by simp [exBuyer], rfl⟩)
    ⟨Client.exRecord, by simp [exBuyer], Client.exRecord_completeProvider⟩ (cid := Merkle.exId 2) (by rw [e1]; simp) (Merkle.exId_proper 2) (max := 4) (by decide) hfirst (by decide)
    (by rw [e4]; decide) (by rw [e4]; decide) (by
      intro os b hos
      have hget' : SqlOffer.getOffers Merkle.toyHash exShop.order exShop.off exShop.now (Gateway.serveAll Gateway.exFresh ([] ++ (exShop, .publishGroup, req) :: [])).db (Merkle.exId 2) =
        .ok ([o], true) := hget
      have := hget'.symm.trans hos
      cases this
      refine ⟨by simp, fun o' ho' => ?_⟩
      rw [List.mem_singleton.1 ho', e4]
      decide)
  obtain ⟨os, f1, f2⟩ := C172_search Merkle.toyHash_digest Merkle.toyHash_digest ht hg (Merkle.exId_proper 2) (max := 4) (by decide) hfirst (by decide)
  have hget' : SqlOffer.getOffers Merkle.toyHash exShop.order exShop.off exShop.now (Gateway.serveAll Gateway.exFresh (exBefore req)).db (Merkle.exId 2) = .ok ([o], true) := hget
  rw [hget'] at f1
  simp only [Res.ok.injEq, Prod.mk.injEq] at f1
  obtain ⟨rfl, -⟩ := f1
  obtain ⟨m2, p2, a2, g1, g2, g3, g4, g5, -, -, g6⟩ := f2 (by simp) (by
    intro o' ho'
    rw [List.mem_singleton.1 (List.mem_of_mem_take ho'), e4]
    decide)
  rw [e3, e4, e5] at k3
  exact ⟨req, l, k1, ⟨s, k2, k3⟩, g3, m2, p2, a2, g5, g6⟩

/-- At a gateway that has served nothing yet the client pays 3 and gets nothing. -/
example : (Client.findStandardV2 (exBuyer [] []) Client.exClient (Merkle.exId 2) (Merkle.exId 1) 4).2.2 = .ok [] ∧
    Client.payments (Client.findStandardV2 (exBuyer [] []) Client.exClient (Merkle.exId 2) (Merkle.exId 1) 4).2.1 = [("p", 3)] := by
  have ht := exTrades (hist := []) (hist2 := []) (o := Codecs.exSingle) (by decide) (by simp) (by simp)
  have hl := Gateway.C52_lookup Merkle.toyHash Merkle.toyHash exShop.order (fun _ => .refl _) Gateway.exFresh rfl [] ht.lived.sound (Merkle.exId 2) (Merkle.exId_proper 2)
    exShop.off exShop.now (by decide)
  obtain ⟨os, h1, h2⟩ := hl
  have hos : os = [] := by
    cases os with
    | nil => rfl
    | cons o os =>
      obtain ⟨-, -, e, he, -⟩ := h2 o (by simp)
      cases he
  subst hos
  obtain ⟨p1, a1, g1, -, g3, -⟩ := C172_nothing ht (Merkle.exId_proper 2) (exBuyer_first [] [] 4).1 (by decide) h1
  exact ⟨g1, g3⟩

/-- A provider publishes between two searches: the books of the client's channel stay in step. -/
example (req : Msg) : InStep Client.exMgr (Gateway.serveAll Gateway.exFresh [(exShop, .publishGroup, req)]).payment "p" exAccount := by
  have ht := exTrades (hist := []) (hist2 := []) (o := Codecs.exSingle) (by decide) (by simp) (by simp)
  exact (C172_between (hist := []) (mid := [(exShop, .publishGroup, req)]) ht.inStep (by simp [GatewayLife.carries])).1

end FcRetrieval.Journey
