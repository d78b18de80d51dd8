import Verif.Spec.PaidJourney
import Verif.Lemmas.PaymentConc
import Verif.Lemmas.GatewayReplay
import Verif.Lemmas.GatewayConcRun
import Verif.Lemmas.Journey
/-!
# Lemmas for a search that is paid for
-/
set_option linter.unusedSimpArgs false

namespace FcRetrieval.Journey
open FcRetrieval.Ids (Id)
open FcRetrieval.Merkle (Hash)
open FcRetrieval.Message (Msg)
open FcRetrieval.Payment (Addr Mgr Chan Lane VBody Voucher)

variable {Sig : Type}

/-- The account of the payer after a payment on lane 0. -/
def charged (a : Chan Sig) (amount : Int) (v : Voucher Sig) : Chan Sig :=
  { a with redeemed := a.redeemed + amount,
           lanes := Payment.put a.lanes 0 ⟨((a.lane 0).nonce + 1) % 2 ^ 64, (a.lane 0).redeemed + amount, (a.lane 0).vouchers ++ [v]⟩ }

/-- A payment within the funds succeeds, is credited in full, and the books agree again. -/
theorem pays_credited {sign : VBody → Option Sig} {verify : Sig → Addr → VBody → Bool} {p q : Mgr Sig} {rcp payer : Addr} {a : Chan Sig} {amount : Int}
    (hs : ∀ b, (sign b).isSome) (hv : ∀ b s, sign b = some s → verify s payer b = true) (hi : InStep p q rcp a) (hpos : 0 < amount)
    (hfunds : a.redeemed + amount ≤ a.balance) :
    ∃ p' w, Payment.pay sign p rcp 0 amount = (p', .paid a.addr w) ∧
      (Payment.receive verify q a.addr (some w) (some ⟨a.balance, .key q.address, .key payer⟩)).2 = .credited amount ∧
      InStep p' (Payment.receive verify q a.addr (some w) (some ⟨a.balance, .key q.address, .key payer⟩)).1 rcp (charged a amount w) := by
  obtain ⟨h1, h2, h3, h4, h5⟩ := hi
  obtain ⟨s, hsig⟩ := Option.isSome_iff_exists.1 (hs ⟨a.addr, 0, (a.lane 0).nonce, (a.lane 0).redeemed + amount⟩)
  generalize hw : (⟨⟨a.addr, 0, (a.lane 0).nonce, (a.lane 0).redeemed + amount⟩, s⟩ : Voucher Sig) = w
  have hlane : w.body.lane = 0 := by rw [← hw]
  have hnonce : w.body.nonce = (a.lane 0).nonce := by rw [← hw]
  have hamt : w.body.amount = (a.lane 0).redeemed + amount := by rw [← hw]
  have hval : w.body.amount - ((books q a.addr).lane w.body.lane).redeemed = amount := by rw [hlane, hamt, h4]; omega
  have hver : verify w.sig payer w.body = true := by rw [← hw]; exact hv _ _ hsig
  refine ⟨{ p with outbound := Payment.put p.outbound rcp (charged a amount w) }, w, ?_, ?_⟩
  · unfold Payment.pay
    rw [h1]
    dsimp only
    rw [if_neg (by omega), hsig]
    simp only [hw, charged]
  · -- what becomes of a channel on the books of the payee
    have key : ∀ c0 : Chan Sig, c0.redeemed = (books q a.addr).redeemed → c0.balance = a.balance → (∀ i, c0.lane i = (books q a.addr).lane i) →
        ∃ c1, Payment.recvCheck verify q.address c0 w ⟨a.balance, .key q.address, .key payer⟩ = (c1, .credited amount) ∧
          c1.redeemed = a.redeemed + amount ∧ c1.balance = a.balance ∧
          (∀ i, (c1.lane i).redeemed = ((charged a amount w).lane i).redeemed) ∧ (∀ i, (c1.lane i).nonce = ((charged a amount w).lane i).nonce) := by
      intro c0 e1 e2 e3
      have hr := Payment.recvCheck_accept (me := q.address) (bal := a.balance) (c := c0) hver (by rw [e3, hlane, h5, hnonce]) (by rw [e3, hlane, h4, hamt]; omega)
        (by rw [e3, hval, e1, e2, h2]; exact hfunds)
      rw [e3, hval] at hr
      refine ⟨_, hr, by dsimp only; rw [e1, h2], e2, ?_, ?_⟩
      · intro i
        by_cases hi : i = 0
        · simp [hi, charged, Payment.Chan.lane, Payment.put, hlane, hamt]
        · have := (congrArg Payment.Lane.redeemed (e3 i)).trans (h4 i)
          simpa [charged, Payment.Chan.lane, Payment.put, hlane, hi] using this
      · intro i
        by_cases hi : i = 0
        · simp [hi, charged, Payment.Chan.lane, Payment.put, hlane, hnonce]
        · have := (congrArg Payment.Lane.nonce (e3 i)).trans (h5 i)
          simpa [charged, Payment.Chan.lane, Payment.put, hlane, hi] using this
    have fin : ∀ c1 : Chan Sig, c1.redeemed = a.redeemed + amount → c1.balance = a.balance →
        (∀ i, (c1.lane i).redeemed = ((charged a amount w).lane i).redeemed) → (∀ i, (c1.lane i).nonce = ((charged a amount w).lane i).nonce) →
        InStep { p with outbound := Payment.put p.outbound rcp (charged a amount w) } { q with inbound := Payment.put q.inbound a.addr c1 } rcp (charged a amount w) := by
      intro c1 e1 e2 e3 e4
      have hb : books { q with inbound := Payment.put q.inbound a.addr c1 } (charged a amount w).addr = c1 := by
        simp [books, charged]
      exact ⟨by simp, by rw [hb, e1]; rfl, by rw [hb, e2]; exact Int.le_refl _, by rw [hb]; exact e3, by rw [hb]; exact e4⟩
    cases hq : q.inbound a.addr with
    | none =>
      obtain ⟨c1, k1, k2, k3, k4, k5⟩ := key ⟨a.addr, a.balance, 0, fun _ => none⟩ (by simp [books, hq]) rfl (by intro i; simp [books, hq, Payment.Chan.lane])
      unfold Payment.receive
      simp only [hq, Payment.recvCreate, k1]
      exact ⟨trivial, fin c1 k2 k3 k4 k5⟩
    | some c =>
      obtain ⟨c1, k1, k2, k3, k4, k5⟩ := key { c with balance := a.balance } (by simp [books, hq]) rfl (by intro i; simp [books, hq, Payment.Chan.lane])
      have hb : c.balance ≤ a.balance := by
        have := h3
        simpa [books, hq] using this
      unfold Payment.receive
      simp only [hq, Payment.recvFound]
      rw [if_neg (by omega)]
      simp only [k1]
      exact ⟨trivial, fin c1 k2 k3 k4 k5⟩

/-! ## Requests that do not carry the channel -/

/-- The address of the wallet, and what is on the books for the channel. -/
def Beside (K : Addr) (p p' : Mgr Sig) : Prop := p'.inbound K = p.inbound K ∧ p'.address = p.address

theorem Beside.refl {K : Addr} {p : Mgr Sig} : Beside K p p := ⟨rfl, rfl⟩
theorem Beside.trans {K : Addr} {p q r : Mgr Sig} (h1 : Beside K p q) (h2 : Beside K q r) : Beside K p r := ⟨h2.1.trans h1.1, h2.2.trans h1.2⟩

theorem receive_beside {verify : Sig → Addr → VBody → Bool} {m : Mgr Sig} {x K : Addr} {v : Option (Voucher Sig)} {cv : Option Payment.ChainView} (h : K ≠ x) :
    Beside K m (Payment.receive verify m x v cv).1 := by
  refine ⟨?_, Gateway.recvCheck_frame.2⟩
  unfold Payment.receive
  split
  · split
    · exact Gateway.Conc.recvCreate_inbound h
    · exact (Gateway.Conc.recvFound_inbound K).1 h
  · rfl

end FcRetrieval.Journey

namespace FcRetrieval.Gateway
open FcRetrieval.Ids (Id)
open FcRetrieval.Message (Msg)
open FcRetrieval.Wire (Codec decode encode)
open FcRetrieval.Codecs
open FcRetrieval.Payment (Mgr Addr)
open FcRetrieval.GatewayLife (carries)
open FcRetrieval.Journey (Beside receive_beside)

variable {Sig : Type}

theorem pay_address {sign : Payment.VBody → Option Sig} {p : Mgr Sig} {r : Addr} {lane : Nat} {a : Int} : (Payment.pay sign p r lane a).1.address = p.address := by
  unfold Payment.pay
  split
  · rfl
  · split
    · rfl
    · dsimp only
      split <;> rfl

theorem topup_address {p : Mgr Sig} {r : Addr} {a : Int} {ch : Payment.TopupChain} : (Payment.topup p r a ch).1.address = p.address := by
  unfold Payment.topup
  split
  · rfl
  · split <;> rfl

theorem topupAndPay_address {sign : Payment.VBody → Option Sig} {t : Int} {p : Mgr Sig} {r : Addr} {lane : Nat} {a : Int} {c1 c2 : Payment.TopupChain} :
    (Payment.topupAndPay sign t p r lane a c1 c2).1.address = p.address := by
  unfold Payment.topupAndPay
  have h1 := topup_address (p := p) (r := r) (a := t) (ch := c1)
  split <;> rename_i e1 <;> rw [e1] at h1
  · exact h1
  rename_i m1
  have h2 := pay_address (sign := sign) (p := m1) (r := r) (lane := lane) (a := a)
  split <;> rename_i e2 <;> rw [e2] at h2
  · exact h2.trans h1
  · exact h2.trans h1
  rename_i m2
  have h3 := topup_address (p := m2) (r := r) (a := t) (ch := c2)
  split <;> rename_i e3 <;> rw [e3] at h3
  · exact h3.trans (h2.trans h1)
  rename_i m3
  have h4 := pay_address (sign := sign) (p := m3) (r := r) (lane := lane) (a := a)
  split <;> rename_i e4 <;> rw [e4] at h4 <;> exact h4.trans (h3.trans (h2.trans h1))

theorem payPeer_address {E : Env Sig} {c : Core Sig} {r : Addr} {a : Int} : (payPeer E c r a).1.payment.address = c.payment.address := by
  unfold payPeer
  have h1 := pay_address (sign := E.signVoucher) (p := c.payment) (r := r) (lane := 0) (a := a)
  split <;> rename_i e1 <;> rw [e1] at h1
  · exact h1
  · exact h1
  rename_i p
  have h2 := topupAndPay_address (sign := E.signVoucher) (t := c.topupAmount) (p := p) (r := r) (lane := 0) (a := a) (c1 := E.topups r 0) (c2 := E.topups r 1)
  split <;> rename_i e2 <;> rw [e2] at h2 <;> exact h2.trans h1

theorem payPeerOffer_address {E : Env Sig} {c : Core Sig} {r : Addr} {a : Int} : (payPeerOffer E c r a).1.payment.address = c.payment.address := by
  unfold payPeerOffer
  have h1 := pay_address (sign := E.signVoucher) (p := c.payment) (r := r) (lane := 0) (a := a)
  split <;> rename_i e1 <;> rw [e1] at h1
  · exact h1
  · exact h1
  rename_i p
  have h2 := topup_address (p := p) (r := r) (a := c.topupAmount) (ch := E.topups r 0)
  split <;> rename_i e2 <;> rw [e2] at h2
  · exact h2.trans h1
  rename_i p1
  have h3 := pay_address (sign := E.signVoucher) (p := p1) (r := r) (lane := 0) (a := c.searchPrice)
  split <;> rename_i e3 <;> rw [e3] at h3 <;> exact h3.trans (h2.trans h1)

theorem dhtV2Loop_address (E : Env Sig) (cid : Id) : ∀ (rs : List Register.Record) (c : Core Sig) (k : Contacts),
    (dhtV2Loop E cid c rs k).1.payment.address = c.payment.address
  | [], c, k => rfl
  | r :: rs, c, k => by
    unfold dhtV2Loop
    split
    · rfl
    · have h1 := payPeer_address (E := E) (c := c) (r := String.ofList r.address) (a := c.searchPrice)
      split <;> rename_i e1 <;> rw [e1] at h1
      · exact h1
      · split
        · exact h1
        · exact (dhtV2Loop_address E cid rs _ _).trans h1

theorem dhtOfferLoop_address (E : Env Sig) (cid : Option Id) (nonce : Int) : ∀ (ids : List Id) (dss : List (List (List Char))) (c : Core Sig) (k : Contacts),
    (dhtOfferLoop E cid nonce c ids dss k).1.payment.address = c.payment.address
  | [], dss, c, k => by simp [dhtOfferLoop]
  | id :: ids, [], c, k => by simp [dhtOfferLoop]
  | id :: ids, ds :: dss, c, k => by
    unfold dhtOfferLoop
    split
    · rfl
    · rename_i g _
      have h1 := payPeerOffer_address (E := E) (c := c) (r := String.ofList g.address) (a := (ds.length : Int) * c.offerPrice)
      split <;> rename_i e1 <;> rw [e1] at h1
      · exact h1
      · dsimp only
        split
        · exact h1
        · exact (dhtOfferLoop_address E cid nonce ids dss _ _).trans h1

theorem core_beside {E : Env Sig} {K : Addr} {c c' : Core Sig} {ch v : List Char} {r : Payment.RecvOut} (h : receive E c ch v = (c', r)) (hK : K ≠ String.ofList ch) :
    Beside K c.payment c'.payment := by
  rw [receive_core h]
  exact receive_beside hK

/-- A request that does not carry a channel does not touch what is on the books for it. -/
theorem serve_beside (E : Env Sig) (c : Core Sig) (k : Kind) (m : Msg) (K : Addr) (h : ∀ v, carries k m ≠ some (K.toList, v)) :
    Beside K c.payment (serve E c k m).1.payment := by
  have hK : ∀ {ch v : List Char}, carries k m = some (ch, v) → K ≠ String.ofList ch := by
    rintro ch v hc rfl
    rw [String.toList_ofList] at h
    exact h v hc
  cases k with
  | establishment =>
    simp only [serve]; unfold establishment
    repeat' split
    all_goals exact .refl
  | standard =>
    simp only [serve]; unfold standard
    repeat' split
    all_goals exact .refl
  | dht =>
    simp only [serve]; unfold dht
    repeat' split
    all_goals exact .refl
  | peerDht =>
    simp only [serve]; unfold peerDht
    repeat' split
    all_goals exact .refl
  | publishDht =>
    simp only [serve]; unfold publishDht
    repeat' split
    all_goals exact .refl
  | publishGroup =>
    simp only [serve]; unfold publishGroup
    repeat' split
    all_goals exact .refl
  | standardV2 =>
    cases hd : decode clientStandardDiscoverRequestV2 m with
    | panic => simp only [serve]; unfold standardV2; rw [hd]; exact .refl
    | err => simp only [serve]; unfold standardV2; rw [hd]; exact .refl
    | ok a =>
      obtain ⟨cid, nonce, ttl, ch, v⟩ := a
      have hk : K ≠ String.ofList ch := hK (v := v) (by simp [carries, hd])
      simp only [serve]
      unfold standardV2
      rw [hd]
      dsimp only
      repeat' split
      all_goals first
        | exact .refl
        | (rename_i hr; exact core_beside hr hk)
        | (rename_i hr _; exact core_beside hr hk)
        | (rename_i hr _ _; exact core_beside hr hk)
        | (rename_i hr _ _ _; exact core_beside hr hk)
        | (rename_i hr _ _ _ _; exact core_beside hr hk)
        | (rename_i hr _ _ _ _ _; exact core_beside hr hk)
        | (rename_i hr _ _ _ _ _ _; exact core_beside hr hk)
        | (rename_i hr _ _ _ _ _ _ _; exact core_beside hr hk)
  | standardOffer =>
    cases hd : decode clientStandardDiscoverOfferRequest m with
    | panic => simp only [serve]; unfold standardOffer; rw [hd]; exact .refl
    | err => simp only [serve]; unfold standardOffer; rw [hd]; exact .refl
    | ok a =>
      obtain ⟨cid, nonce, ttl, ds, ch, v⟩ := a
      have hk : K ≠ String.ofList ch := hK (v := v) (by simp [carries, hd])
      simp only [serve]
      unfold standardOffer
      rw [hd]
      dsimp only
      repeat' split
      all_goals first
        | exact .refl
        | (rename_i hr; exact core_beside hr hk)
        | (rename_i hr _; exact core_beside hr hk)
        | (rename_i hr _ _; exact core_beside hr hk)
        | (rename_i hr _ _ _; exact core_beside hr hk)
        | (rename_i hr _ _ _ _; exact core_beside hr hk)
        | (rename_i hr _ _ _ _ _; exact core_beside hr hk)
        | (rename_i hr _ _ _ _ _ _; exact core_beside hr hk)
        | (rename_i hr _ _ _ _ _ _ _; exact core_beside hr hk)
  | dhtV2 =>
    cases hd : decode clientDHTDiscoverRequestV2 m with
    | panic => simp only [serve]; unfold dhtV2; rw [hd]; exact .refl
    | err => simp only [serve]; unfold dhtV2; rw [hd]; exact .refl
    | ok a =>
      obtain ⟨cid, nonce, ttl, num, inc, ch, v⟩ := a
      have hk : K ≠ String.ofList ch := hK (v := v) (by simp [carries, hd])
      simp only [serve]
      unfold dhtV2
      rw [hd]
      dsimp only
      split
      · exact .refl
      split
      · exact .refl
      split
      · exact .refl
      split
      · rename_i hr
        exact core_beside hr hk
      · rename_i hr
        exact core_beside hr hk
      · rename_i id _ rs _ _ c1 amount hr
        have hi := dhtV2Loop_inbound E id rs c1 ⟨[], [], []⟩
        have ha := dhtV2Loop_address E id rs c1 ⟨[], [], []⟩
        split <;> rename_i hl <;> rw [hl] at hi ha <;> exact (core_beside hr hk).trans ⟨congrFun hi K, ha⟩
  | dhtOffer =>
    cases hd : decode clientDHTDiscoverOfferRequest m with
    | panic => simp only [serve]; unfold dhtOffer; rw [hd]; exact .refl
    | err => simp only [serve]; unfold dhtOffer; rw [hd]; exact .refl
    | ok a =>
      obtain ⟨cid, nonce, dss, ids, ch, v⟩ := a
      have hk : K ≠ String.ofList ch := hK (v := v) (by simp [carries, hd])
      simp only [serve]
      unfold dhtOffer
      rw [hd]
      dsimp only
      split
      · rename_i hr
        exact core_beside hr hk
      · rename_i hr
        exact core_beside hr hk
      · rename_i c1 amount hr
        have hi := dhtOfferLoop_inbound E cid nonce ids dss c1 ⟨[], [], []⟩
        have ha := dhtOfferLoop_address E cid nonce ids dss c1 ⟨[], [], []⟩
        split <;> rename_i hl <;> rw [hl] at hi ha <;> exact (core_beside hr hk).trans ⟨congrFun hi K, ha⟩
  | peerDhtV2 =>
    cases hd : decode gatewayDHTDiscoverRequestV2 m with
    | panic => simp only [serve]; unfold peerDhtV2; rw [hd]; exact .refl
    | err => simp only [serve]; unfold peerDhtV2; rw [hd]; exact .refl
    | ok a =>
      obtain ⟨gw, cid, nonce, ttl, ch, v⟩ := a
      have hk : K ≠ String.ofList ch := hK (v := v) (by simp [carries, hd])
      simp only [serve]
      unfold peerDhtV2
      rw [hd]
      dsimp only
      split
      · exact .refl
      · exact .refl
      split
      · exact .refl
      split
      · rename_i hr
        exact core_beside hr hk
      · rename_i hr
        exact core_beside hr hk
      · rename_i hr
        repeat' split
        all_goals exact core_beside (c' := _) hr hk
  | peerDhtOffer =>
    cases hd : decode gatewayDHTDiscoverOfferRequest m with
    | panic => simp only [serve]; unfold peerDhtOffer; rw [hd]; exact .refl
    | err => simp only [serve]; unfold peerDhtOffer; rw [hd]; exact .refl
    | ok a =>
      obtain ⟨cid, nonce, ds, ch, v⟩ := a
      have hk : K ≠ String.ofList ch := hK (v := v) (by simp [carries, hd])
      simp only [serve]
      unfold peerDhtOffer
      rw [hd]
      dsimp only
      split
      · rename_i hr
        exact core_beside hr hk
      · rename_i hr
        exact core_beside hr hk
      · rename_i hr
        have := core_beside hr hk
        repeat' split
        all_goals exact this

theorem serveAll_beside (K : Addr) : ∀ (hist : List (Env Sig × Kind × Msg)) (c : Core Sig), (∀ e ∈ hist, ∀ v, carries e.2.1 e.2.2 ≠ some (K.toList, v)) →
    Beside K c.payment (serveAll c hist).payment
  | [], c, _ => .refl
  | (E, k, m) :: hist, c, h => (serve_beside E c k m K (h (E, k, m) (by simp))).trans
      (serveAll_beside K hist (serve E c k m).1 (fun e he => h e (by simp [he])))

theorem serveAll_append : ∀ (h1 h2 : List (Env Sig × Kind × Msg)) (c : Core Sig), serveAll c (h1 ++ h2) = serveAll (serveAll c h1) h2
  | [], _, _ => rfl
  | (E, k, m) :: h1, h2, c => serveAll_append h1 h2 (serve E c k m).1

theorem keep_mem {acc : List Offer.CidOffer} {x o : Offer.CidOffer} (h : o ∈ acc) : o ∈ SqlOffer.keep acc x := by
  unfold SqlOffer.keep
  split
  · exact h
  · split
    · exact h
    · simp [h]

theorem foldl_keep_mem : ∀ (l acc : List Offer.CidOffer) {o : Offer.CidOffer}, o ∈ acc → o ∈ l.foldl SqlOffer.keep acc
  | [], _, _, h => h
  | _ :: l, _, _, h => foldl_keep_mem l _ (keep_mem h)

theorem stored_append {l l' : List Offer.CidOffer} {o : Offer.CidOffer} (h : o ∈ SqlOffer.stored l) : o ∈ SqlOffer.stored (l ++ l') := by
  unfold SqlOffer.stored at h ⊢
  rw [List.foldl_append]
  exact foldl_keep_mem _ _ h

/-- What is found for a CID can be fetched later by its digest, until it expires. -/
theorem found_fetched {H H512 : Merkle.Hash} (hH512 : Merkle.Digest32 H512) {c : Core Sig} (hdb : c.db = SqlOffer.newDB) {h1 h2 : List (Env Sig × Kind × Msg)}
    (hs : Sound H H512 (h1 ++ h2)) {G G2 : Env Sig} (hG : G.H512 = H512) (hG2 : G2.H = H) (ho1 : ∀ l, (G.order l).Perm l) (ho2 : ∀ l, (G2.order l).Perm l)
    (hn1 : 0 ≤ G.now - G.off) (hn2 : 0 ≤ G2.now - G2.off) {id : Id} (hid : id.length = 32) {os : List Offer.CidOffer} {b : Bool}
    (hos : SqlOffer.getOffers H G.order G.off G.now (serveAll c h1).db id = .ok (os, b)) {n : Nat} (hexp : ∀ o ∈ os.take n, G2.now - G2.off < o.expiry) :
    ((digestTexts G os).take n).map (fun d => SqlOffer.getByDigest G2.H G2.order G2.off G2.now (serveAll c (h1 ++ h2)).db (readDigest G2 d)) =
      (os.take n).map (fun o => .ok (some o)) := by
  have hs1 : Sound H H512 h1 := ⟨fun e he => hs.1 e (by simp [he]), fun l hl => hs.2 l (fun o ho => by
    obtain ⟨e, he, hv⟩ := hl o ho
    exact ⟨e, by simp [he], hv⟩)⟩
  obtain ⟨l, oks, hrun, hl, -⟩ := serveAll_run H512 h1 (fun e he => (hs1.1 e he).2) c
  obtain ⟨l2, oks2, hrun2, hl2, -⟩ := serveAll_run H512 h2 (fun e he => (hs.1 e (by simp [he])).2) (serveAll c h1)
  have hrun3 := run_append _ _ _ _ _ _ _ hrun hrun2
  rw [← serveAll_append] at hrun3
  rw [hdb] at hrun hrun3
  have hl3 : ∀ x ∈ l ++ l2, ∃ e ∈ h1 ++ h2, Vouched e.1 e.2.2 x.2 := by
    intro x hx
    rcases List.mem_append.1 hx with hx | hx
    · obtain ⟨⟨e, he, hv⟩, -⟩ := hl x hx
      exact ⟨e, by simp [he], hv⟩
    · obtain ⟨⟨e, he, hv⟩, -⟩ := hl2 x hx
      exact ⟨e, by simp [he], hv⟩
  obtain ⟨db, oks', os', g1, g2, g3⟩ := SqlOffer.C26_by_cid H H512 G.order ho1 l (history_sane hs1 l (fun x hx => (hl x hx).1)) id hid G.off G.now hn1
  rw [hrun] at g1
  cases g1
  rw [hos] at g2
  cases g2
  rw [digestTexts, ← List.map_take, List.map_map]
  apply List.map_congr_left
  intro o ho
  dsimp only [Function.comp]
  obtain ⟨o', ho', hm⟩ := List.mem_flatMap.1 (g3.mem_iff.1 (List.mem_of_mem_take ho))
  split at hm
  · rename_i he
    obtain ⟨hc, rfl⟩ := List.mem_replicate.1 hm
    obtain ⟨x, hx, hxe⟩ := List.mem_map.1 ((SqlOffer.C26_stored (l.map (·.2))).1 o ho').1
    obtain ⟨⟨e, hev, hv⟩, -⟩ := hl x hx
    rw [hxe] at hv
    have hb := vouched_built hv
    obtain ⟨d, hd, -⟩ := OfferMgr.digest_ok H512 hb.1
    rw [hG, hd]
    dsimp only
    have hlen : d.length = 32 := by
      unfold Offer.digest at hd
      obtain ⟨b, -, hd⟩ := res_ok_of_bind hd
      cases hd
      exact hH512 b
    have hread : readDigest G2 (Offer.encodeDigest d) = d := by
      unfold readDigest
      rw [Offer.C16_digest_text_round_trip d hlen]
      rfl
    rw [hread, hG2]
    obtain ⟨db, oks', r, k1, k2, k3⟩ := SqlOffer.C26_by_digest H H512 G2.order ho2 (l ++ l2) (history_sane hs (l ++ l2) hl3) d G2.off G2.now hn2
    rw [hrun3] at k1
    cases k1
    rw [k2, (k3 o).2 ⟨by rw [List.map_append]; exact stored_append ho', hd, hexp o ho, he.2⟩]
  · simp at hm

end FcRetrieval.Gateway

namespace FcRetrieval.Client
open FcRetrieval.Ids (Id)
open FcRetrieval.Message (Msg)
open FcRetrieval.Register (Record)
open FcRetrieval.Payment (Addr Voucher)
open FcRetrieval.Codecs
open FcRetrieval.Wire (decode encode)

variable {Sig : Type}

/-- The first message that the client sends in the second version of the standard discovery. -/
theorem standardV2_first (E : Env Sig) (hpr : ProtocolOk E.pr) (c : Client Sig) (cid gw : Id) (hcid : cid.length = 32) (max : Int) (hn0 : inI64 (E.nonce 0))
    (httl : inI64 (E.now + c.settings.ttl)) (r : Record) (hr : ActiveRecord c gw r) (p p1 : Payment.Mgr Sig) (hp : c.payment = some p) (ch : Addr) (v : Voucher Sig)
    (hpay : Payment.pay E.signVoucher p (String.ofList r.address) 0 c.settings.searchPrice = (p1, .paid ch v)) :
    ∃ m, (asked (findStandardV2 E c cid gw max).2.1).head? = some (r.netClient, m) ∧
      encode clientStandardDiscoverRequestV2 E.pr (some cid, E.nonce 0, E.now + c.settings.ttl, ch.toList, E.showVoucher v) = .ok m ∧
      decode clientStandardDiscoverRequestV2 m = .ok (some cid, E.nonce 0, E.now + c.settings.ttl, ch.toList, E.showVoucher v) := by
  obtain ⟨m, hm, ht, -, -, hd⟩ := C30_clientStandardDiscoverRequestV2 E.pr hpr (some cid) (E.nonce 0) (E.now + c.settings.ttl) ch.toList (E.showVoucher v)
    ⟨cid, rfl, hcid⟩ hn0 httl
  refine ⟨m, ?_, hm, (hd m.signature).2⟩
  have hreq : (requestStandardV2 E 0 r cid (E.nonce 0) (E.now + c.settings.ttl) ch.toList (E.showVoucher v)).1 = [.asked r.netClient m] := by
    unfold requestStandardV2
    dsimp only
    rw [hm]
    rfl
  have hs : ∃ rest, (searchStandardV2 E { c with payment := some p1 } r cid ch v).2.1 = .asked r.netClient m :: rest := by
    unfold searchStandardV2
    dsimp only
    rw [hreq]
    split
    · exact ⟨_, rfl⟩
    · exact ⟨_, rfl⟩
    · exact ⟨_, rfl⟩
    · split
      · exact ⟨_, rfl⟩
      · exact ⟨_, rfl⟩
      · exact ⟨_, rfl⟩
  obtain ⟨rest, hs⟩ := hs
  unfold findStandardV2
  rw [show mget c.active (Ids.toStr gw) = some r from hr]
  dsimp only
  rw [payFor_funded hp hpay]
  dsimp only
  split <;> rename_i e <;> rw [e] at hs <;> dsimp only at hs <;> subst hs
  · rfl
  · rfl
  · split
    · rfl
    · split <;> rfl

/-- A gateway that has nothing for the CID. -/
theorem standardV2_none_run (E : Env Sig) (hpr : ProtocolOk E.pr) (c : Client Sig) (cid gw : Id) (hcid : cid.length = 32) (max : Int) (hn0 : inI64 (E.nonce 0))
    (httl : inI64 (E.now + c.settings.ttl)) (r : Record) (hr : ActiveRecord c gw r) (p p1 : Payment.Mgr Sig) (hp : c.payment = some p) (ch : Addr) (v : Voucher Sig)
    (hpay : Payment.pay E.signVoucher p (String.ofList r.address) 0 c.settings.searchPrice = (p1, .paid ch v))
    (G : Gateway.Env Sig) (g : Gateway.Core Sig) (hb : Behind E r 0 G g) (hnow : G.now ≤ E.now + c.settings.ttl)
    (hworth : Gateway.Pays G g ch.toList (E.showVoucher v) g.searchPrice) (hoff : SqlOffer.getOffers G.H G.order G.off G.now g.db cid = .ok ([], false)) :
    ∃ m, findStandardV2 E c cid gw max = ({ c with payment := some p1 }, [.paid (String.ofList r.address) c.settings.searchPrice v, .asked r.netClient m], .ok []) := by
  obtain ⟨m, hm, ht, -, -, hd⟩ := C30_clientStandardDiscoverRequestV2 E.pr hpr (some cid) (E.nonce 0) (E.now + c.settings.ttl) ch.toList (E.showVoucher v)
    ⟨cid, rfl, hcid⟩ hn0 httl
  have hd : decode clientStandardDiscoverRequestV2 m = _ := (hd m.signature).2
  obtain ⟨amount, hcred, hge⟩ := hworth
  obtain ⟨a, h1, h2, h3⟩ := hb.respond (b1 := .status 400) (b2 := .status 500) (C30_clientStandardDiscoverResponseV2 G.pr hb.protocol (some cid) (E.nonce 0) false
    [] [] false [] ⟨cid, rfl, hcid⟩ hn0)
  have ha : Answered E 0 r m a := by
    refine ⟨?_, h3⟩
    rw [hb.served]
    have : clientKind m.type = some .standardV2 := by
      rw [ht]
      rfl
    rw [this]
    simp only [Option.bind_some, Gateway.serve]
    unfold Gateway.standardV2
    rw [hd]
    dsimp only
    rw [if_neg (by omega)]
    simp only [Gateway.getOffers, hoff]
    rw [Gateway.receive_credited hcred]
    dsimp only
    rw [if_pos hge]
    exact congrArg reply h1
  refine ⟨m, ?_⟩
  have hreq : requestStandardV2 E 0 r cid (E.nonce 0) (E.now + c.settings.ttl) ch.toList (E.showVoucher v) = ([.asked r.netClient m], .ok ([], false)) := by
    unfold requestStandardV2
    dsimp only
    rw [hm, ask_answered ha]
    simp only [Res.bind_ok, h2, deref, ne_eq, not_true_eq_false, if_false, Bool.false_eq_true]
  have hs : searchStandardV2 E { c with payment := some p1 } r cid ch v = ({ c with payment := some p1 }, [.asked r.netClient m], .ok []) := by
    unfold searchStandardV2
    dsimp only
    rw [hreq]
  unfold findStandardV2
  rw [show mget c.active (Ids.toStr gw) = some r from hr]
  dsimp only
  rw [payFor_funded hp hpay]
  dsimp only
  rw [hs]
  rfl

end FcRetrieval.Client

namespace FcRetrieval.Gateway
open FcRetrieval.Ids (Id)
open FcRetrieval.Message (Msg)
open FcRetrieval.Wire (decode)
open FcRetrieval.Codecs

variable {Sig : Type}

/-- The books of a gateway after a search that it serves. -/
theorem standardV2_books {E : Env Sig} {c : Core Sig} {m : Msg} {id : Id} {nonce ttl : Int} {ch v : List Char} {os : List Offer.CidOffer} {b : Bool}
    (hd : decode clientStandardDiscoverRequestV2 m = .ok (some id, nonce, ttl, ch, v)) (hn : E.now ≤ ttl)
    (ho : SqlOffer.getOffers E.H E.order E.off E.now c.db id = .ok (os, b)) :
    (serve E c .standardV2 m).1.payment =
      (Payment.receive E.verifyVoucher c.payment (String.ofList ch) (E.readVoucher v) (E.chain (String.ofList ch))).1 := by
  simp only [serve]
  unfold standardV2
  rw [hd]
  dsimp only
  rw [if_neg (by omega)]
  simp only [getOffers, ho]
  split <;> rename_i hr
  · exact receive_core hr
  · exact receive_core hr
  · repeat' split
    all_goals exact receive_core hr

/-- The books of a gateway after a request for offers that it serves. -/
theorem standardOffer_books {E : Env Sig} {c : Core Sig} {m : Msg} {cid : Option Id} {nonce ttl : Int} {ds : List (List Char)} {ch v : List Char}
    (hd : decode clientStandardDiscoverOfferRequest m = .ok (cid, nonce, ttl, ds, ch, v)) (hn : E.now ≤ ttl) :
    (serve E c .standardOffer m).1.payment =
      (Payment.receive E.verifyVoucher c.payment (String.ofList ch) (E.readVoucher v) (E.chain (String.ofList ch))).1 := by
  simp only [serve]
  unfold standardOffer
  rw [hd]
  dsimp only
  rw [if_neg (by omega)]
  split <;> rename_i hr
  · exact receive_core hr
  · exact receive_core hr
  · repeat' split
    all_goals exact receive_core hr

end FcRetrieval.Gateway
