import Verif.Spec.GatewayPeers
import Verif.Props.GatewayCrash
import Verif.Lemmas.Payment
/-!
# C102 for any number of peers
-/
set_option linter.unusedSimpArgs false

namespace FcRetrieval.Gateway
open FcRetrieval.Ids (Id)
open FcRetrieval.Message (Msg)
open FcRetrieval.Merkle (exId exId_proper)
open FcRetrieval.Wire
open FcRetrieval.Codecs
open FcRetrieval.Payment (Addr Voucher)

variable {Sig : Type}

theorem owed_nonneg {price : Int} (h : 0 ≤ price) (a : Addr) : ∀ ps, 0 ≤ owed price a ps
  | [] => Int.le_refl _
  | p :: ps => by
    have := owed_nonneg h a ps
    have h2 : 0 ≤ (p.digests.length : Int) * price := Int.mul_nonneg (by omega) h
    unfold owed
    split <;> omega

/-- One peer whose channel has the funds. -/
theorem pay_funded (E : Env Sig) (c : Core Sig) (a : Addr) (amount : Int) (o : Payment.Chan Sig) (ho : c.payment.outbound a = some o)
    (hf : o.redeemed + amount ≤ o.balance) (hsign : ∀ b, E.signVoucher b ≠ none) :
    ∃ o' v p, payPeerOffer E c a amount = ({ c with payment := p }, .ok (some (o.addr, v))) ∧ v.body.amount = (o.lane 0).redeemed + amount ∧
      p.outbound = Payment.put c.payment.outbound a o' ∧
      (o'.lane 0).redeemed = (o.lane 0).redeemed + amount ∧ o'.redeemed = o.redeemed + amount ∧ o'.balance = o.balance ∧ o'.addr = o.addr := by
  unfold payPeerOffer Payment.pay
  dsimp only
  rw [ho]
  dsimp only
  rw [if_neg (by omega)]
  cases hb : E.signVoucher ⟨o.addr, 0, (o.lane 0).nonce, (o.lane 0).redeemed + amount⟩ with
  | none => exact absurd hb (hsign _)
  | some sig => exact ⟨_, _, _, rfl, rfl, rfl, by simp [Payment.Chan.lane], rfl, rfl, rfl⟩

/-- What the loop over the peers does. -/
def Served (E : Env Sig) (id : Id) (nonce price : Int) (outbound : Addr → Option (Payment.Chan Sig)) (peers : List Peer) (out : List (Out Sig)) : Prop :=
  ∃ vs : List (Voucher Sig), spent out = (peers.map Peer.address).zip vs ∧ vs.length = peers.length ∧
    ∀ (i : Nat) (p : Peer) (v : Voucher Sig), peers[i]? = some p → vs[i]? = some v → ∃ o req, outbound p.address = some o ∧
      v.body.amount = (o.lane 0).redeemed + owed price p.address (peers.take (i + 1)) ∧
      Out.asked p.id req ∈ out ∧ decode gatewayDHTDiscoverOfferRequest req = .ok (some id, nonce, p.digests, o.addr.toList, E.showVoucher v)

theorem request_asks' {α : Type} {codec : Codec α} {E : Env Sig} {c : Core Sig} (hk : CanSign E c) {a : α} (hd : Delivers codec E.pr a) (id : Id)
    {g : Register.Record} (hg : E.gateway id = some g) (hs : signingKey g ≠ .panic) :
    ∃ req r, request E c id (encode codec E.pr a) = ([.asked id req], r) ∧ decode codec req = .ok a ∧ r ≠ .panic := by
  obtain ⟨m, he, -, -, -, hsig⟩ := hd
  unfold request
  rw [he]
  obtain ⟨sig, hs'⟩ := Option.isSome_iff_exists.1 (hk (Message.toSign m))
  simp only [Message.sign, hs']
  refine ⟨_, _, rfl, (hsig sig).2, ?_⟩
  rw [hg]
  split
  · rename_i h
    cases h
    cases hk2 : signingKey g with
    | panic => exact absurd hk2 hs
    | err => exact (fun c => nomatch c)
    | ok key =>
      simp only [Res.bind_ok]
      split <;> exact (fun c => nomatch c)
  · exact (fun c => nomatch c)

theorem dhtOfferLoop_served (E : Env Sig) (hpr : ProtocolOk E.pr) (id : Id) (hid : id.length = 32) (nonce : Int) (hn : inI64 nonce)
    (hsign : ∀ b, E.signVoucher b ≠ none) :
    ∀ (peers : List Peer) (c : Core Sig) (k : Contacts), CanSign E c → 0 ≤ c.offerPrice →
      (∀ p ∈ peers, E.gateway p.id = some p.record ∧ signingKey p.record ≠ .panic ∧
        ∃ o, c.payment.outbound p.address = some o ∧ o.redeemed + owed c.offerPrice p.address peers ≤ o.balance) →
      Served E id nonce c.offerPrice c.payment.outbound peers
        (dhtOfferLoop E (some id) nonce c (peers.map Peer.id) (peers.map Peer.digests) k).2.1
  | [], c, k, _, _, _ => ⟨[], by simp [dhtOfferLoop, spent], rfl, by simp⟩
  | p :: ps, c, k, hk, hp, h => by
    obtain ⟨hg, hs, o, ho, hf⟩ := h p (List.mem_cons_self ..)
    have hself : owed c.offerPrice p.address (p :: ps) = (p.digests.length : Int) * c.offerPrice + owed c.offerPrice p.address ps := by
      simp [owed]
    have hrest := owed_nonneg hp p.address ps
    obtain ⟨o', v, m, hpay, hv, hm, hl, hr, hb, ha⟩ := pay_funded E c p.address ((p.digests.length : Int) * c.offerPrice) o ho (by omega) hsign
    have hk' : CanSign E { c with payment := m } := hk
    obtain ⟨req, resp, hreq, hdec, hnp⟩ := request_asks' hk' (C30_gatewayDHTDiscoverOfferRequest E.pr hpr (some id) nonce p.digests
      o.addr.toList (E.showVoucher v) ⟨id, rfl, hid⟩ hn) p.id hg hs
    have tail : ∀ q ∈ ps, E.gateway q.id = some q.record ∧ signingKey q.record ≠ .panic ∧
        ∃ o, m.outbound q.address = some o ∧ o.redeemed + owed c.offerPrice q.address ps ≤ o.balance := by
      intro q hq
      obtain ⟨h1, h2, oq, h3, h4⟩ := h q (List.mem_cons_of_mem _ hq)
      refine ⟨h1, h2, ?_⟩
      by_cases he : p.address = q.address
      · rw [← he, hm, Payment.put_same]
        rw [← he, ho] at h3
        cases h3
        refine ⟨o', rfl, ?_⟩
        rw [← he] at h4
        omega
      · rw [hm, Payment.put_other _ _ (Ne.symm he)]
        refine ⟨oq, h3, ?_⟩
        simp only [owed, if_neg he] at h4
        omega
    obtain ⟨vs, hv1, hv2, hv3⟩ := dhtOfferLoop_served E hpr id hid nonce hn hsign ps { c with payment := m } (k.add p.id resp) hk' hp tail
    have hloop : (dhtOfferLoop E (some id) nonce c ((p :: ps).map Peer.id) ((p :: ps).map Peer.digests) k).2.1 =
        [Out.paid p.address v] ++ [Out.asked p.id req] ++
          (dhtOfferLoop E (some id) nonce { c with payment := m } (ps.map Peer.id) (ps.map Peer.digests) (k.add p.id resp)).2.1 := by
      simp only [List.map_cons]
      rw [dhtOfferLoop, hg]
      dsimp only
      rw [show String.ofList p.record.address = p.address from rfl, hpay]
      dsimp only [Option.map_some, Option.getD_some, Option.toList]
      rw [hreq]
      cases resp with
      | panic => exact absurd rfl hnp
      | ok x => rfl
      | err => rfl
    rw [hloop]
    refine ⟨v :: vs, by rw [spent_append, spent_append, hv1]; rfl, by simp [hv2], ?_⟩
    intro i q w hq hw
    cases i with
    | zero =>
      simp only [List.getElem?_cons_zero, Option.some.injEq] at hq hw
      subst hq; subst hw
      refine ⟨o, req, ho, ?_, by simp, hdec⟩
      rw [hv]
      simp [owed]
    | succ i =>
      simp only [List.getElem?_cons_succ] at hq hw
      obtain ⟨oq, rq, h1, h2, h3, h4⟩ := hv3 i q w hq hw
      by_cases he : p.address = q.address
      · have h1' : m.outbound q.address = some oq := h1
        rw [← he, hm, Payment.put_same] at h1'
        cases h1'
        refine ⟨o, rq, he ▸ ho, ?_, by simp [h3], ha ▸ h4⟩
        rw [h2, hl]
        simp only [List.take_succ_cons, owed, if_pos he]
        omega
      · have h1' : m.outbound q.address = some oq := h1
        rw [hm, Payment.put_other _ _ (Ne.symm he)] at h1'
        refine ⟨oq, rq, h1', ?_, by simp [h3], h4⟩
        rw [h2]
        simp only [List.take_succ_cons, owed, if_neg he]
        omega

/-- C102 for any number of peers, several of which may share an address: if the channels have the funds, every peer is paid by one voucher, in order, which raises what
may be redeemed at its address by the price of the offers asked of it, on top of what was paid before; and the request that it gets carries that voucher. -/
theorem C102_peers_partial (E : Env Sig) (hpr : ProtocolOk E.pr) (c : Core Sig) (hk : CanSign E c) (m : Msg) (id : Id) (nonce : Int) (peers : List Peer)
    (ch v : List Char) (hreq : decode clientDHTDiscoverOfferRequest m = .ok (some id, nonce, peers.map Peer.digests, peers.map Peer.id, ch, v))
    (amount : Int) (hcred : Credits E c ch v amount) (hprice : 0 ≤ c.offerPrice) (hsign : ∀ b, E.signVoucher b ≠ none)
    (hpeers : ∀ p ∈ peers, E.gateway p.id = some p.record ∧ signingKey p.record ≠ .panic ∧
      ∃ o, c.payment.outbound p.address = some o ∧ o.redeemed + owed c.offerPrice p.address peers ≤ o.balance) :
    ∃ vs : List (Voucher Sig), spent (serve E c .dhtOffer m).2 = (peers.map Peer.address).zip vs ∧ vs.length = peers.length ∧
      ∀ (i : Nat) (p : Peer) (v : Voucher Sig), peers[i]? = some p → vs[i]? = some v → ∃ o req, c.payment.outbound p.address = some o ∧
        v.body.amount = (o.lane 0).redeemed + owed c.offerPrice p.address (peers.take i) + (p.digests.length : Int) * c.offerPrice ∧
        Out.asked p.id req ∈ (serve E c .dhtOffer m).2 ∧
        decode gatewayDHTDiscoverOfferRequest req = .ok (some id, nonce, p.digests, o.addr.toList, E.showVoucher v) := by
  have hq := dhtOffer_req hreq
  obtain ⟨inb, hc1⟩ := receive_frame (receive_credited hcred)
  have hs := dhtOfferLoop_served E hpr id (hq.1 id rfl) nonce hq.2.1 hsign peers (receive E c ch v).1 ⟨[], [], []⟩ (by rw [hc1]; exact hk)
    (by rw [hc1]; exact hprice) (by rw [hc1]; exact hpeers)
  have e1 : (receive E c ch v).1.offerPrice = c.offerPrice := by rw [hc1]
  have e2 : (receive E c ch v).1.payment.outbound = c.payment.outbound := by rw [hc1]
  rw [e1, e2] at hs
  obtain ⟨vs, h1, h2, h3⟩ := hs
  have sum : ∀ (l : List Peer) (i : Nat) (p : Peer), l[i]? = some p →
      owed c.offerPrice p.address (l.take (i + 1)) = owed c.offerPrice p.address (l.take i) + (p.digests.length : Int) * c.offerPrice := by
    intro l
    induction l with
    | nil => intro i p hp; simp at hp
    | cons q l ih =>
      intro i p hp
      cases i with
      | zero =>
        simp only [List.getElem?_cons_zero, Option.some.injEq] at hp
        subst hp
        simp [owed]
      | succ i =>
        simp only [List.getElem?_cons_succ] at hp
        have := ih i p hp
        simp only [List.take_succ_cons, owed] at this ⊢
        omega
  have key : ∀ out', spent out' = spent (dhtOfferLoop E (some id) nonce (receive E c ch v).1 (peers.map Peer.id) (peers.map Peer.digests) ⟨[], [], []⟩).2.1 →
      (∀ x, x ∈ (dhtOfferLoop E (some id) nonce (receive E c ch v).1 (peers.map Peer.id) (peers.map Peer.digests) ⟨[], [], []⟩).2.1 → x ∈ out') →
      ∃ vs : List (Voucher Sig), spent out' = (peers.map Peer.address).zip vs ∧ vs.length = peers.length ∧
      ∀ (i : Nat) (p : Peer) (v : Voucher Sig), peers[i]? = some p → vs[i]? = some v → ∃ o req, c.payment.outbound p.address = some o ∧
        v.body.amount = (o.lane 0).redeemed + owed c.offerPrice p.address (peers.take i) + (p.digests.length : Int) * c.offerPrice ∧
        Out.asked p.id req ∈ out' ∧
        decode gatewayDHTDiscoverOfferRequest req = .ok (some id, nonce, p.digests, o.addr.toList, E.showVoucher v) := by
    intro out' hs hsub
    refine ⟨vs, hs.trans h1, h2, fun i p w hp hw => ?_⟩
    obtain ⟨o, req, a1, a2, a3, a4⟩ := h3 i p w hp hw
    refine ⟨o, req, a1, ?_, hsub _ a3, a4⟩
    rw [a2, sum peers i p hp]
    omega
  apply key
  all_goals
    simp only [serve]
    unfold dhtOffer
    rw [hreq]
    dsimp only
    rw [receive_credited hcred]
    dsimp only
    generalize hw : (if amount < _ then _ else _ : List (Out Sig)) = warn
    have hwarn : spent warn = [] := by
      subst hw
      split <;> rfl
    cases hl : dhtOfferLoop E (some id) nonce (receive E c ch v).1 (peers.map Peer.id) (peers.map Peer.digests) ⟨[], [], []⟩ with
    | mk c2 rest =>
      obtain ⟨out, ok⟩ := rest
      cases ok with
      | none => first | (intro x hx; exact List.mem_append_right _ hx) | simp [spent_append, hwarn]
      | some k =>
        first
        | (intro x hx; exact List.mem_append_left _ (List.mem_append_right _ hx))
        | (dsimp only; rw [spent_append, spent_append, hwarn, respond_spent rfl rfl]; simp)

/-- Two peers with the same address, one asked for two offers, the other for one: 4 and then 2 more. -/
def exPeers : List Peer := [⟨exId 3, exRecord, [['a'], ['b']]⟩, ⟨exId 3, exRecord, [['a']]⟩]

example : ∃ m, decode clientDHTDiscoverOfferRequest m = .ok (some (exId 2), 7, exPeers.map Peer.digests, exPeers.map Peer.id, ['c'], ['5']) ∧
    (∀ p ∈ exPeers, exEnv.gateway p.id = some p.record ∧ signingKey p.record ≠ .panic ∧
      ∃ o, exCore.payment.outbound p.address = some o ∧ o.redeemed + owed exCore.offerPrice p.address exPeers ≤ o.balance) ∧
    owed exCore.offerPrice "p" exPeers = 6 := by
  obtain ⟨m, hd⟩ := exDecodes (C30_clientDHTDiscoverOfferRequest exEnv.pr defaultProtocolOk (some (exId 2)) 7 (exPeers.map Peer.digests) (exPeers.map Peer.id) ['c'] ['5']
    (exIdOk 2) ⟨by decide, by decide⟩ (by intro p hp; simp [exPeers] at hp; subst hp; exact exId_proper 3))
  refine ⟨m, hd, ?_, by decide +kernel⟩
  intro p hp
  have : exEnv.gateway p.id = some p.record ∧ p.record = exRecord := by
    simp only [exPeers, List.mem_cons, List.not_mem_nil, or_false] at hp
    rcases hp with rfl | rfl <;> simp [exEnv]
  refine ⟨this.1, by rw [this.2, show signingKey exRecord = .ok exPub from exRecord_key]; exact (fun c => nomatch c), ⟨"out", 100, 0, fun _ => none⟩, ?_, ?_⟩
  · rw [Peer.address, this.2]; rfl
  · rw [Peer.address, this.2]; decide +kernel

end FcRetrieval.Gateway
