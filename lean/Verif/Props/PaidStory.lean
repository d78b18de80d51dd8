import Verif.Spec.PaidStory
import Verif.Props.PaidJourney
/-!
# C172: one search after the other
-/
set_option linter.unusedSimpArgs false

namespace FcRetrieval.Journey
open FcRetrieval.Ids (Id)
open FcRetrieval.Merkle (Hash)
open FcRetrieval.Message (Msg)
open FcRetrieval.Register (Record)
open FcRetrieval.Payment (Addr Mgr Chan Voucher)

variable {Sig : Type}

/-- `Trades` from the setting and the books. -/
theorem Setting.trades {H H512 : Hash} {g0 : Gateway.Core Sig} {hist : Hist Sig} {G : Gateway.Env Sig} {C : Client.Env Sig} {c : Client.Client Sig} {gw : Id} {r : Record}
    {payer : Addr} {a : Chan Sig} {p : Mgr Sig} (h : Setting H H512 g0 hist G C c gw r payer a.addr a.balance) (hp : c.payment = some p)
    (hin : InStep p (Gateway.serveAll g0 hist).payment (String.ofList r.address) a) : Trades H H512 g0 hist G C c gw r payer p a :=
  ⟨h.lived, h.active, h.behind, h.hash, h.protocol, h.nonce, h.ttl, h.inTime, h.clock, h.order, hp, h.signs, hin, h.settles, h.price⟩

/-- The conditions on what follows the first message are about the channel and its balance only. -/
theorem continues_at {H H512 : Hash} {g0 : Gateway.Core Sig} {hist : Hist Sig} {G : Gateway.Env Sig} {m1 : Msg} {mid : Hist Sig} {G2 : Gateway.Env Sig} {C : Client.Env Sig}
    {c : Client.Client Sig} {r : Record} {payer : Addr} {a b : Chan Sig} (h : Continues H H512 g0 hist G m1 mid G2 C c r payer b) (ha : a.addr = b.addr) (hb : a.balance = b.balance) :
    Continues H H512 g0 hist G m1 mid G2 C c r payer a :=
  ⟨h.lived, h.behind, h.hash, h.keys, h.nonce, h.inTime, h.clock, h.order, by rw [ha, hb]; exact h.settles, by rw [ha]; exact h.alone, h.price⟩

/-- One search. -/
theorem visit_right {H H512 : Hash} (hH : Merkle.Digest32 H) (hH512 : Merkle.Digest32 H512) {g0 : Gateway.Core Sig} {gw : Id} {r : Record} {payer : Addr} {c : Client.Client Sig}
    {hist : Hist Sig} {v : Visit Sig} {p : Mgr Sig} {a : Chan Sig} (hf : v.Fits H H512 g0 gw r payer a.addr a.balance c hist) (hp : c.payment = some p)
    (hin : InStep p (Gateway.serveAll g0 hist).payment (String.ofList r.address) a)
    (hfunds : a.redeemed + c.settings.searchPrice + v.max * c.settings.offerPrice ≤ a.balance) (hop : 0 ≤ c.settings.offerPrice) :
    v.Right H g0 gw r c (hist ++ v.before) ∧
      ∃ p' a', v.after gw c = { c with payment := some p' } ∧
        InStep p' (Gateway.serveAll g0 (hist ++ v.before ++ v.served gw c)).payment (String.ofList r.address) a' ∧ a'.addr = a.addr ∧ a'.balance = a.balance ∧
        a'.redeemed = a.redeemed + ((v.paid gw c).map (·.2)).sum ∧ ((v.paid gw c).map (·.2)).sum ≤ c.settings.searchPrice + v.max * c.settings.offerPrice := by
  obtain ⟨hin', haddr⟩ := C172_between (mid := v.before) hin hf.alone
  have ht := hf.setting.trades hp hin'
  have hmaxop : 0 ≤ v.max * c.settings.offerPrice := Int.mul_nonneg (by have := hf.max; omega) hop
  obtain ⟨p1, w, h3, -, -⟩ := pays_credited ht.signs ht.settles.verifies ht.inStep ht.price.1 (show a.redeemed + c.settings.searchPrice ≤ a.balance by omega)
  obtain ⟨m1, hm1, -, -⟩ := Client.standardV2_first v.C ht.protocol c v.cid gw hf.content v.max ht.nonce ht.ttl r ht.active p p1 ht.wallet a.addr w h3
  have hg := continues_at (a := a) (hf.continues m1 hm1) rfl rfl
  obtain ⟨os, k1, k2⟩ := C172_search hH hH512 ht hg hf.content hf.max hm1 hfunds
  by_cases hne : os = []
  · subst hne
    obtain ⟨p', a', g1, g2, g3, g4, g5, g6, g7, g8⟩ := C172_nothing ht hf.content hm1 (show a.redeemed + c.settings.searchPrice ≤ a.balance by omega) k1
    have hs : v.served gw c = [(v.G, .standardV2, m1)] := by
      unfold Visit.served Visit.sent
      rw [g2]
    have hpd : v.paid gw c = [(String.ofList r.address, c.settings.searchPrice)] := g3
    refine ⟨⟨[], k1, by simpa [Visit.result] using g1, by rw [hpd]; simp⟩, p', a', g4, by rw [hs]; exact g5, g6, g7, ?_, ?_⟩
    · rw [g8, hpd]; simp
    · rw [hpd]; simp; omega
  · obtain ⟨m2, p', a', g1, g2, g3, g4, g5, g6, g7, g8⟩ := k2 hne (hf.last os _ k1)
    have hs : v.served gw c = (v.G, .standardV2, m1) :: v.mid ++ [(v.G2, .standardOffer, m2)] := by
      unfold Visit.served Visit.sent
      rw [g2]
    have hpd : v.paid gw c = [(String.ofList r.address, c.settings.searchPrice), (String.ofList r.address, (os.take v.max.toNat).length * c.settings.offerPrice)] := g3
    have hle : ((os.take v.max.toNat).length : Int) * c.settings.offerPrice ≤ v.max * c.settings.offerPrice := by
      apply Int.mul_le_mul_of_nonneg_right _ hop
      have := List.length_take_le v.max.toNat os
      have := hf.max
      omega
    refine ⟨⟨os, k1, g1, by rw [hpd]; simp [hne]⟩, p', a', g4, ?_, g6, g7, ?_, ?_⟩
    · rw [hs]
      rw [show hist ++ v.before ++ ((v.G, Gateway.Kind.standardV2, m1) :: v.mid ++ [(v.G2, Gateway.Kind.standardOffer, m2)]) =
        hist ++ v.before ++ (v.G, .standardV2, m1) :: v.mid ++ [(v.G2, .standardOffer, m2)] by simp]
      exact g5
    · rw [g8, hpd]; simp; omega
    · rw [hpd]; simp only [List.map_cons, List.map_nil, List.sum_cons, List.sum_nil]; omega

theorem story_max {H H512 : Hash} {g0 : Gateway.Core Sig} {gw : Id} {r : Record} {payer ch : Addr} {balance : Int} : ∀ {vs : List (Visit Sig)} {c : Client.Client Sig} {hist : Hist Sig},
    Story H H512 g0 gw r payer ch balance c hist vs → ∀ v ∈ vs, 1 ≤ v.max
  | [], _, _, _, v, hv => by cases hv
  | w :: vs, _, _, h, v, hv => by
    rcases List.mem_cons.1 hv with rfl | hv
    · exact h.1.max
    · exact story_max h.2 v hv

theorem atMost_nonneg {s : Client.Settings} (h1 : 0 ≤ s.searchPrice) (h2 : 0 ≤ s.offerPrice) : ∀ (vs : List (Visit Sig)), (∀ v ∈ vs, 1 ≤ v.max) → 0 ≤ atMost s vs
  | [], _ => Int.le_refl _
  | v :: vs, h => by
    have ih := atMost_nonneg h1 h2 vs (fun w hw => h w (List.mem_cons_of_mem _ hw))
    have h3 : 0 ≤ v.max * s.offerPrice := Int.mul_nonneg (by have := h v List.mem_cons_self; omega) h2
    unfold atMost at ih ⊢
    simp only [List.map_cons, List.sum_cons]
    omega

/-- **C172**, search after search: a client whose books agree with those of a gateway, and which has the funds for all of them, makes any number of searches, with whatever the
gateway serves for others before, between and during them.  Every one is answered with the offers the gateway has at that moment and is paid for once.  At the end the books still
agree, and what the gateway has credited is exactly what the client has paid. -/
theorem C172_story {H H512 : Hash} (hH : Merkle.Digest32 H) (hH512 : Merkle.Digest32 H512) {g0 : Gateway.Core Sig} {gw : Id} {r : Record} {payer : Addr} :
    ∀ (vs : List (Visit Sig)) (c : Client.Client Sig) (hist : Hist Sig) (p : Mgr Sig) (a : Chan Sig),
      Story H H512 g0 gw r payer a.addr a.balance c hist vs → c.payment = some p →
      InStep p (Gateway.serveAll g0 hist).payment (String.ofList r.address) a → 0 ≤ c.settings.offerPrice → a.redeemed + atMost c.settings vs ≤ a.balance → 
      (∀ e ∈ moments gw c hist vs, e.2.2.Right H g0 gw r e.1 e.2.1) ∧
      ∃ p' a', (ending gw c hist vs).1 = { c with payment := some p' } ∧
        InStep p' (Gateway.serveAll g0 (ending gw c hist vs).2).payment (String.ofList r.address) a' ∧ a'.addr = a.addr ∧ a'.balance = a.balance ∧
        a'.redeemed = a.redeemed + spent gw c hist vs
  | [], c, hist, p, a, _, hp, hin, _, _ => by
    refine ⟨by simp [moments], p, a, ?_, hin, rfl, rfl, by simp [spent]⟩
    obtain ⟨⟩ := c
    simp only at hp
    subst hp
    rfl
  | v :: vs, c, hist, p, a, hs, hp, hin, hop, hfunds => by
    obtain ⟨hf, hs⟩ := hs
    simp only [atMost, List.map_cons, List.sum_cons] at hfunds
    have hrest : 0 ≤ atMost c.settings vs := atMost_nonneg (by have := hf.setting.price.1; omega) hop vs (story_max hs)
    obtain ⟨hr, p1, a1, h1, h2, h3, h4, h5, h6⟩ := visit_right hH hH512 hf hp hin (by unfold atMost at hrest; omega) hop
    rw [← h3, ← h4] at hs
    obtain ⟨k1, p2, a2, k2, k3, k4, k5, k6⟩ := C172_story hH hH512 vs (v.after gw c) _ p1 a1 hs (by rw [h1]) h2 (by rw [h1]; exact hop)
      (by rw [h1]; unfold atMost; dsimp only; omega)
    refine ⟨?_, p2, a2, ?_, k3, k4.trans h3, k5.trans h4, ?_⟩
    · intro e he
      rcases List.mem_cons.1 he with rfl | he
      · exact hr
      · exact k1 e he
    · rw [show ending gw c hist (v :: vs) = ending gw (v.after gw c) (hist ++ v.before ++ v.served gw c) vs from rfl, k2, h1]
    · rw [k6, h5]
      simp only [spent]
      omega

/-! ## A concrete story -/

/-- The client of the examples with this payment manager. -/
def exPayer (p : Mgr Unit) : Client.Client Unit := { Client.exClient with payment := some p }

/-- The message with which the client begins a search. -/
def exBegins (c : Client.Client Unit) : Msg :=
  match (Client.asked (Client.findStandardV2 (exBuyer [] []) c (Merkle.exId 2) (Merkle.exId 1) 4).2.1).head? with
  | some (_, m) => m
  | none => ⟨0, 0, none, none, []⟩

/-- A search of the client `c` at the gateway that has served `hist`. -/
def exVisit (c : Client.Client Unit) (hist before : Hist Unit) : Visit Unit :=
  ⟨before, exBuyer (hist ++ before) (hist ++ before ++ [(exShop, .standardV2, exBegins c)]), exShop, Merkle.exId 2, 4, [], exShop⟩

theorem exOfferPrice : ∀ (hist : Hist Unit) (g : Gateway.Core Unit), (∀ e ∈ hist, e.2.1 ≠ .peerDhtOffer) → (Gateway.serveAll g hist).offerPrice = g.offerPrice
  | [], _, _ => rfl
  | e :: hist, g, h => by
    rw [show Gateway.serveAll g (e :: hist) = Gateway.serveAll (Gateway.serve e.1 g e.2.1 e.2.2).1 hist from rfl, exOfferPrice hist _ (fun x hx => h x (List.mem_cons_of_mem _ hx)),
      (Gateway.serve_frame _ _ _ _).2.2.2.2.2.1 (h e List.mem_cons_self)]

theorem exFits {p : Mgr Unit} {a : Chan Unit} {hist before : Hist Unit} {o : Offer.CidOffer} (ho : o.cids.length < 2 ^ 63) (hexp : 1000 < o.expiry)
    (hal : ∀ e ∈ before, ∀ t, GatewayLife.carries e.2.1 e.2.2 ≠ some ("c".toList, t)) (haddr : (Gateway.serveAll Gateway.exFresh (hist ++ before)).payment.address = "gw")
    (h : ∀ e ∈ hist ++ before, e.1 = exShop ∧ ∀ q o', Gateway.Publishes exShop e.2.2 q o' → o' = o) (hno : ∀ e ∈ hist ++ before, e.2.1 ≠ .peerDhtOffer)
    (hin : InStep p (Gateway.serveAll Gateway.exFresh (hist ++ before)).payment (String.ofList Client.exRecord.address) a) (hac : a.addr = "c") (hab : a.balance = 100000000000000000)
    (hf : a.redeemed + 3 ≤ a.balance) :
    (exVisit (exPayer p) hist before).Fits Merkle.toyHash Merkle.toyHash Gateway.exFresh (Merkle.exId 1) Client.exRecord "cl" a.addr a.balance
      (exPayer p) hist := by
  have hpay := pays_credited (sign := (exBuyer [] []).signVoucher) (verify := exShop.verifyVoucher) (payer := "cl") (amount := 3) (fun _ => rfl) (fun _ _ _ => rfl) hin (by decide) hf
  obtain ⟨p1, w, h3, -, -⟩ := hpay
  have hfirst := fun h1 h2 => Client.standardV2_first (exBuyer h1 h2) Codecs.defaultProtocolOk (exPayer p) (Merkle.exId 2) (Merkle.exId 1)
    (Merkle.exId_proper 2) 4 (show inI64 7 from ⟨by decide, by decide⟩) (show inI64 1100 from ⟨by decide, by decide⟩) Client.exRecord Client.exClient_active p p1 rfl a.addr w h3
  obtain ⟨m, g1, g2, g3⟩ := hfirst [] []
  have hbeg : exBegins (exPayer p) = m := by
    unfold exBegins
    rw [g1]
  have hset : ∀ h1 h2, Settles (exBuyer h1 h2) exShop "cl" (Gateway.serveAll Gateway.exFresh (hist ++ before)).payment.address a.addr a.balance := by
    intro h1 h2
    rw [haddr, hac, hab]
    exact exShop_settles _ _
  have hlived : Lived Merkle.toyHash Merkle.toyHash Gateway.exFresh (hist ++ before) := exLived_shop ho h
  refine ⟨by rw [hac]; exact hal, ⟨hlived, Client.exClient_active, exBuyer_behind _ _ 0, rfl, Codecs.defaultProtocolOk, show inI64 7 from ⟨by decide, by decide⟩,
    show inI64 1100 from ⟨by decide, by decide⟩, show (1000 : Int) ≤ 1100 by decide, show (0 : Int) ≤ 1000 - 0 by decide, fun _ => .refl _, fun _ => rfl,
    hset _ _, show (0 : Int) < 3 by decide, ?_⟩, Merkle.exId_proper 2, show (1 : Int) ≤ 4 by decide, ?_, ?_⟩
  · show (Gateway.serveAll Gateway.exFresh (hist ++ before)).searchPrice ≤ 3
    rw [(Gateway.C50_search_price Gateway.exFresh (hist ++ before)).1]
    decide
  · intro m1 hm1
    obtain ⟨m', k1, k2, k3⟩ := hfirst (hist ++ before) (hist ++ before ++ [(exShop, .standardV2, exBegins (exPayer p))])
    have hm : m1 = m := by
      have e1 : m1 = m' := by
        have := k1.symm.trans hm1
        simp only [Option.some.injEq, Prod.mk.injEq, true_and] at this
        exact this.symm
      have e2 : Res.ok m' = Res.ok m := k2.symm.trans g2
      cases e2
      exact e1
    subst hm
    have hb2 : Client.Behind (exVisit (exPayer p) hist before).C Client.exRecord 2 exShop
        (Gateway.serveAll Gateway.exFresh (hist ++ before ++ [(exShop, .standardV2, m1)])) := by
      rw [← hbeg]
      exact exBuyer_behind (hist ++ before) (hist ++ before ++ [(exShop, .standardV2, exBegins (exPayer p))]) 2
    refine ⟨exLived_shop ho ?_, hb2, rfl, ?_, show inI64 9 from ⟨by decide, by decide⟩, show (1000 : Int) ≤ 1100 by decide, show (0 : Int) ≤ 1000 - 0 by decide, fun _ => .refl _,
      hset _ _, by simp [exVisit], show (0 : Int) < 2 by decide, ?_⟩
    · intro e he
      rcases List.mem_append.1 he with he | he
      · exact h e he
      · simp only [exVisit, List.mem_cons, List.not_mem_nil, or_false] at he
        subst he
        refine ⟨rfl, fun q o' hp => ?_⟩
        exfalso
        have ht := (Gateway.decode_inv g3).1
        obtain ⟨n, ⟨os, hd, -⟩ | hd⟩ := hp
        all_goals
          have := (Gateway.decode_inv hd).1
          rw [ht] at this
          cases this
    · intro i rec hr
      simp only [exVisit, exBuyer] at hr
      split at hr
      · cases hr
        exact ⟨by decide, by decide⟩
      · cases hr
    · show (Gateway.serveAll Gateway.exFresh (hist ++ before ++ (exShop, .standardV2, m1) :: [])).offerPrice ≤ 2
      rw [exOfferPrice _ _ (by
        intro e he
        rcases List.mem_append.1 he with he | he
        · exact hno e he
        · simp only [List.mem_cons, List.not_mem_nil, or_false] at he
          subst he
          simp)]
      decide
  · intro os b hos o' ho'
    obtain ⟨os', l1, l2⟩ := Gateway.C52_lookup Merkle.toyHash Merkle.toyHash exShop.order (fun _ => .refl _) Gateway.exFresh rfl (hist ++ before) hlived.sound (Merkle.exId 2)
      (Merkle.exId_proper 2) exShop.off exShop.now (by decide)
    have hos' : SqlOffer.getOffers Merkle.toyHash exShop.order exShop.off exShop.now (Gateway.serveAll Gateway.exFresh (hist ++ before)).db (Merkle.exId 2) = .ok (os, b) := hos
    rw [hos'] at l1
    simp only [Res.ok.injEq, Prod.mk.injEq] at l1
    obtain ⟨rfl, -⟩ := l1
    obtain ⟨-, -, e, he, q, k, hp, -⟩ := l2 o' (List.mem_of_mem_take ho')
    rw [(h e he).1] at hp
    rw [(h e he).2 q o' hp]
    exact hexp

/-- The client searches in vain, a provider publishes, and the client searches again: both searches go well, and the books agree at the end. -/
example : ∃ vs : List (Visit Unit), vs.length = 2 ∧
    (∀ e ∈ moments (Merkle.exId 1) Client.exClient [] vs, e.2.2.Right Merkle.toyHash Gateway.exFresh (Merkle.exId 1) Client.exRecord e.1 e.2.1) ∧
    ∃ p' a', InStep p' (Gateway.serveAll Gateway.exFresh (ending (Merkle.exId 1) Client.exClient [] vs).2).payment "p" a' ∧
      a'.redeemed = spent (Merkle.exId 1) Client.exClient [] vs := by
  obtain ⟨req, o, m', hd, e1, e2, e3, e4, e5, hm, hget⟩ := exShop_request
  have hlen : o.cids.length < 2 ^ 63 := by rw [e1]; decide
  have hexp : 1000 < o.expiry := by rw [e4]; decide
  have hone : ∀ q o', Gateway.Publishes exShop req q o' → o' = o := fun q o' hp => (exGroup_publishes hd (show Gateway.Publishes exG req q o' from hp)).2
  generalize hh2 : [(exShop, Gateway.Kind.standardV2, exBegins (exPayer Client.exMgr))] = hist2
  have ht := exTrades (hist := []) (hist2 := hist2) (o := Codecs.exSingle) (by decide) (by simp) (by simp)
  have hfirst := (exBuyer_first [] hist2 4).1
  obtain ⟨os, l1, l2⟩ := Gateway.C52_lookup Merkle.toyHash Merkle.toyHash exShop.order (fun _ => .refl _) Gateway.exFresh rfl [] ht.lived.sound (Merkle.exId 2) (Merkle.exId_proper 2)
    exShop.off exShop.now (by decide)
  have hos : os = [] := by
    cases os with
    | nil => rfl
    | cons x xs =>
      obtain ⟨-, -, e, he, -⟩ := l2 x List.mem_cons_self
      cases he
  subst hos
  obtain ⟨-, -, -, -, -, -, -, -, haddr⟩ := first_paid ht (Merkle.exId_proper 2) hfirst (by decide)
  obtain ⟨p1, a1, g1, g2, g3, g4, g5, g6, g7, g8⟩ := C172_nothing ht (Merkle.exId_proper 2) hfirst (by decide) l1
  have f1 := exFits (p := Client.exMgr) (a := exAccount) (hist := []) (before := []) hlen hexp (by simp) rfl (by simp) (by simp) ht.inStep rfl rfl (by decide)
  have hpub : ∀ e ∈ [(exShop, Gateway.Kind.publishGroup, req)], ∀ t, GatewayLife.carries e.2.1 e.2.2 ≠ some ("c".toList, t) := by
    intro e he t
    rw [List.mem_singleton.1 he]
    simp [GatewayLife.carries]
  obtain ⟨k1, k2⟩ := C172_between (mid := [(exShop, .publishGroup, req)]) g5 (by rw [g6]; exact hpub)
  rw [List.nil_append] at k1 k2
  have haddr' : (Gateway.serveAll Gateway.exFresh [(exShop, .standardV2, exFirst)]).payment.address = "gw" := by
    rw [show Gateway.serveAll Gateway.exFresh [(exShop, .standardV2, exFirst)] = (Gateway.serve exShop (Gateway.serveAll Gateway.exFresh []) .standardV2 exFirst).1 from rfl, haddr]
    rfl
  have f2 := exFits (p := p1) (a := a1) (hist := [(exShop, .standardV2, exFirst)]) (before := [(exShop, .publishGroup, req)]) hlen hexp hpub
    (by rw [k2]; exact haddr')
    (by
      intro e he
      simp only [List.cons_append, List.nil_append, List.mem_cons, List.not_mem_nil, or_false] at he
      rcases he with rfl | rfl
      · exact ⟨rfl, fun q o' hp => absurd hp exFirst_publishes⟩
      · exact ⟨rfl, hone⟩)
    (by
      intro e he
      simp only [List.cons_append, List.nil_append, List.mem_cons, List.not_mem_nil, or_false] at he
      rcases he with rfl | rfl <;> simp)
    k1 g6 g7 (by rw [g7, g8]; decide)
  have hv1 : exVisit (exPayer Client.exMgr) [] [] = ⟨[], exBuyer [] hist2, exShop, Merkle.exId 2, 4, [], exShop⟩ := by rw [← hh2]; rfl
  rw [hv1] at f1
  have hserved : (⟨[], exBuyer [] hist2, exShop, Merkle.exId 2, 4, [], exShop⟩ : Visit Unit).served (Merkle.exId 1) Client.exClient = [(exShop, .standardV2, exFirst)] := by
    unfold Visit.served Visit.sent
    rw [g2]
  have hafter : (⟨[], exBuyer [] hist2, exShop, Merkle.exId 2, 4, [], exShop⟩ : Visit Unit).after (Merkle.exId 1) Client.exClient = exPayer p1 := g4
  have hstory : Story Merkle.toyHash Merkle.toyHash Gateway.exFresh (Merkle.exId 1) Client.exRecord "cl" exAccount.addr exAccount.balance Client.exClient []
      [⟨[], exBuyer [] hist2, exShop, Merkle.exId 2, 4, [], exShop⟩, exVisit (exPayer p1) [(exShop, .standardV2, exFirst)] [(exShop, .publishGroup, req)]] := by
    refine ⟨f1, ?_, trivial⟩
    rw [hserved, hafter, ← g6, ← g7]
    exact f2
  obtain ⟨r1, p', a', -, r2, -, -, r3⟩ := C172_story Merkle.toyHash_digest Merkle.toyHash_digest _ Client.exClient [] Client.exMgr exAccount hstory rfl ht.inStep (by decide) (by
    show (0 : Int) + (3 + 4 * 2 + (3 + 4 * 2 + 0)) ≤ 100000000000000000
    decide)
  refine ⟨_, rfl, r1, p', a', r2, ?_⟩
  rw [r3, show exAccount.redeemed = 0 from rfl]
  omega

end FcRetrieval.Journey
