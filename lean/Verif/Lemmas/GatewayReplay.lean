import Verif.Spec.GatewayPromise
import Verif.Props.Gateway
import Verif.Lemmas.PaymentRecv
import Verif.Lemmas.PaymentProps
import Verif.Lemmas.GatewaySigned
/-!
# What a gateway has been paid only grows
-/

set_option linter.unusedSimpArgs false

namespace FcRetrieval.Gateway
open FcRetrieval.Ids (Id)
open FcRetrieval.Message (Msg)
open FcRetrieval.Wire (Codec decode encode)
open FcRetrieval.Codecs
open FcRetrieval.Payment (Mgr Addr inC)
open FcRetrieval.GatewayLife (carries pays)

variable {Sig : Type}

/-- On every lane of every channel at least as much has been paid. -/
def Grown (p p' : Mgr Sig) : Prop := ∀ x j, ((inC p x).lane j).redeemed ≤ ((inC p' x).lane j).redeemed

theorem Grown.refl {p : Mgr Sig} : Grown p p := fun _ _ => Int.le_refl _
theorem Grown.trans {p q r : Mgr Sig} (h1 : Grown p q) (h2 : Grown q r) : Grown p r := fun x j => Int.le_trans (h1 x j) (h2 x j)
theorem Grown.of_inbound {p q : Mgr Sig} (h : q.inbound = p.inbound) : Grown p q := by
  intro x j
  unfold inC
  rw [h]
  exact Int.le_refl _

theorem receive_grown {verify : Sig → Addr → Payment.VBody → Bool} {p : Mgr Sig} {ch : Addr} {v : Option (Payment.Voucher Sig)} {cv : Option Payment.ChainView} :
    Grown p (Payment.receive verify p ch v cv).1 := by
  obtain ⟨-, ⟨a, w, cv', -, -, -, h4, h5, -, -, -, -, -, h9⟩ | ⟨-, -, h3⟩⟩ := Payment.receive_spec verify p ⟨ch, v, cv⟩
  · intro x j
    have := h9 x j
    simp only at this h4
    rw [this]
    split
    · rename_i hx
      obtain ⟨rfl, rfl⟩ := hx
      simp only
      omega
    · exact Int.le_refl _
  · intro x j
    have := h3 x j
    simp only at this
    rw [this]
    exact Int.le_refl _

/-- A voucher that was credited has been paid. -/
theorem receive_paid {verify : Sig → Addr → Payment.VBody → Bool} {p : Mgr Sig} {ch : Addr} {w : Payment.Voucher Sig} {cv : Option Payment.ChainView} {a : Int}
    (h : (Payment.receive verify p ch (some w) cv).2 = .credited a) :
    w.body.amount ≤ ((inC (Payment.receive verify p ch (some w) cv).1 ch).lane w.body.lane).redeemed := by
  obtain ⟨-, ⟨a, w', cv', -, h2, -, h4, h5, -, -, -, -, -, h9⟩ | ⟨h1, -⟩⟩ := Payment.receive_spec verify p ⟨ch, some w, cv⟩
  · simp only [Option.some.injEq] at h2
    subst h2
    have := h9 ch w.body.lane
    simp only [and_self, if_true] at this
    rw [this]
    simp
  · exact absurd h (h1 a)

theorem pay_inbound {sign : Payment.VBody → Option Sig} {p : Mgr Sig} {r : Addr} {lane : Nat} {a : Int} : (Payment.pay sign p r lane a).1.inbound = p.inbound := by
  unfold Payment.pay
  split
  · rfl
  · split
    · rfl
    · dsimp only
      split <;> rfl

theorem topup_inbound {p : Mgr Sig} {r : Addr} {a : Int} {ch : Payment.TopupChain} : (Payment.topup p r a ch).1.inbound = p.inbound := by
  unfold Payment.topup
  split
  · rfl
  · split <;> rfl

theorem topupAndPay_inbound {sign : Payment.VBody → Option Sig} {t : Int} {p : Mgr Sig} {r : Addr} {lane : Nat} {a : Int} {c1 c2 : Payment.TopupChain} :
    (Payment.topupAndPay sign t p r lane a c1 c2).1.inbound = p.inbound := by
  unfold Payment.topupAndPay
  have h1 := topup_inbound (p := p) (r := r) (a := t) (ch := c1)
  split <;> rename_i e1 <;> rw [e1] at h1
  · exact h1
  rename_i m1
  have h2 := pay_inbound (sign := sign) (p := m1) (r := r) (lane := lane) (a := a)
  split <;> rename_i e2 <;> rw [e2] at h2
  · exact h2.trans h1
  · exact h2.trans h1
  rename_i m2
  have h3 := topup_inbound (p := m2) (r := r) (a := t) (ch := c2)
  split <;> rename_i e3 <;> rw [e3] at h3
  · exact h3.trans (h2.trans h1)
  rename_i m3
  have h4 := pay_inbound (sign := sign) (p := m3) (r := r) (lane := lane) (a := a)
  split <;> rename_i e4 <;> rw [e4] at h4 <;> exact h4.trans (h3.trans (h2.trans h1))

theorem payPeer_inbound {E : Env Sig} {c : Core Sig} {r : Addr} {a : Int} : (payPeer E c r a).1.payment.inbound = c.payment.inbound := by
  unfold payPeer
  have h1 := pay_inbound (sign := E.signVoucher) (p := c.payment) (r := r) (lane := 0) (a := a)
  split <;> rename_i e1 <;> rw [e1] at h1
  · exact h1
  · exact h1
  rename_i p
  have h2 := topupAndPay_inbound (sign := E.signVoucher) (t := c.topupAmount) (p := p) (r := r) (lane := 0) (a := a) (c1 := E.topups r 0) (c2 := E.topups r 1)
  split <;> rename_i e2 <;> rw [e2] at h2 <;> exact h2.trans h1

theorem payPeerOffer_inbound {E : Env Sig} {c : Core Sig} {r : Addr} {a : Int} : (payPeerOffer E c r a).1.payment.inbound = c.payment.inbound := by
  unfold payPeerOffer
  have h1 := pay_inbound (sign := E.signVoucher) (p := c.payment) (r := r) (lane := 0) (a := a)
  split <;> rename_i e1 <;> rw [e1] at h1
  · exact h1
  · exact h1
  rename_i p
  have h2 := topup_inbound (p := p) (r := r) (a := c.topupAmount) (ch := E.topups r 0)
  split <;> rename_i e2 <;> rw [e2] at h2
  · exact h2.trans h1
  rename_i p1
  have h3 := pay_inbound (sign := E.signVoucher) (p := p1) (r := r) (lane := 0) (a := c.searchPrice)
  split <;> rename_i e3 <;> rw [e3] at h3 <;> exact h3.trans (h2.trans h1)

theorem dhtV2Loop_inbound (E : Env Sig) (cid : Id) : ∀ (rs : List Register.Record) (c : Core Sig) (k : Contacts),
    (dhtV2Loop E cid c rs k).1.payment.inbound = c.payment.inbound
  | [], c, k => rfl
  | r :: rs, c, k => by
    unfold dhtV2Loop
    split
    · rfl
    · have h1 := payPeer_inbound (E := E) (c := c) (r := String.ofList r.address) (a := c.searchPrice)
      split <;> rename_i e1 <;> rw [e1] at h1
      · exact h1
      · split
        · exact h1
        · exact (dhtV2Loop_inbound E cid rs _ _).trans h1

theorem dhtOfferLoop_inbound (E : Env Sig) (cid : Option Id) (nonce : Int) : ∀ (ids : List Id) (dss : List (List (List Char))) (c : Core Sig) (k : Contacts),
    (dhtOfferLoop E cid nonce c ids dss k).1.payment.inbound = c.payment.inbound
  | [], dss, c, k => by simp [dhtOfferLoop]
  | id :: ids, [], c, k => by simp [dhtOfferLoop]
  | id :: ids, ds :: dss, c, k => by
    unfold dhtOfferLoop
    split
    · rfl
    · rename_i g _
      have h1 := payPeerOffer_inbound (E := E) (c := c) (r := String.ofList g.address) (a := (ds.length : Int) * c.offerPrice)
      split <;> rename_i e1 <;> rw [e1] at h1
      · exact h1
      · dsimp only
        split
        · exact h1
        · exact (dhtOfferLoop_inbound E cid nonce ids dss _ _).trans h1

theorem receive_core {E : Env Sig} {c c' : Core Sig} {ch v : List Char} {r : Payment.RecvOut} (h : receive E c ch v = (c', r)) :
    c'.payment = (Payment.receive E.verifyVoucher c.payment (String.ofList ch) (E.readVoucher v) (E.chain (String.ofList ch))).1 := by
  unfold receive at h
  cases h
  rfl

theorem core_grown {E : Env Sig} {c c' : Core Sig} {ch v : List Char} {r : Payment.RecvOut} (h : receive E c ch v = (c', r)) : Grown c.payment c'.payment := by
  rw [receive_core h]
  exact receive_grown

/-- What becomes of the payments in answering a request that carries this channel and voucher, and that something is disclosed only if the voucher is
credited. -/
def Takes (E : Env Sig) (c : Core Sig) (ch v : List Char) (r : Core Sig × List (Out Sig)) : Prop :=
  Grown c.payment r.1.payment ∧ ∀ x, Out.message x ∈ r.2 → Discloses x → ∃ amount, Credits E c ch v amount ∧
    Grown (Payment.receive E.verifyVoucher c.payment (String.ofList ch) (E.readVoucher v) (E.chain (String.ofList ch))).1 r.1.payment

theorem Takes.stay {E : Env Sig} {c : Core Sig} {ch v : List Char} {o : List (Out Sig)} (h : ∀ x, Out.message x ∉ o) : Takes E c ch v (c, o) :=
  ⟨.refl, fun x hx => absurd hx (h x)⟩

theorem Takes.quiet {E : Env Sig} {c c' : Core Sig} {ch v : List Char} {r : Payment.RecvOut} {o : List (Out Sig)} (hr : receive E c ch v = (c', r))
    (h : ∀ x, Out.message x ∈ o → ¬ Discloses x) : Takes E c ch v (c', o) :=
  ⟨core_grown hr, fun x hx hd => absurd hd (h x hx)⟩

theorem Takes.paid {E : Env Sig} {c c' c'' : Core Sig} {ch v : List Char} {a : Int} {o : List (Out Sig)} (hr : receive E c ch v = (c', .credited a))
    (hi : c''.payment.inbound = c'.payment.inbound) : Takes E c ch v (c'', o) := by
  refine ⟨(core_grown hr).trans (.of_inbound hi), fun x _ _ => ⟨a, receive_snd hr, ?_⟩⟩
  rw [← receive_core hr]
  exact .of_inbound hi

theorem none_silent {E : Env Sig} {c : Core Sig} {nonce : Int} {f : Bool} {os : List Offer.SubOffer} {fs : List Bool} {p : Bool} {ch : List Char} {b1 b2 : Out Sig}
    (x : Msg) (h : Out.message x ∈ respond E c clientStandardDiscoverOfferResponse b1 b2 (none, nonce, f, os, fs, p, ch)) : False := by
  have he : encode clientStandardDiscoverOfferResponse E.pr (none, nonce, f, os, fs, p, ch) = .panic := rfl
  simp [respond, he] at h

theorem takes_standardV2 (E : Env Sig) (hpr : ProtocolOk E.pr) (c : Core Sig) (m : Msg) {cid : Option Id} {nonce ttl : Int} {ch v : List Char}
    (hreq : decode clientStandardDiscoverRequestV2 m = .ok (cid, nonce, ttl, ch, v)) : Takes E c ch v (standardV2 E c m) := by
  unfold standardV2
  rw [hreq]
  dsimp only
  split
  · exact .stay (by simp)
  split
  · exact .stay (by simp)
  rename_i id
  obtain ⟨hid, hn⟩ := standardV2_req hreq
  have hshort : ∀ (found : Bool) (x : Msg), Out.message x ∈ respond E c clientStandardDiscoverResponseV2 (.status 400) (.status 500)
      (some id, nonce, found, [], [], true, ch) → ¬ Discloses x := by
    intro found x hm hd
    obtain ⟨ht, hdec⟩ := respond_decode (by simp) (by simp)
      (C30_clientStandardDiscoverResponseV2 E.pr hpr (some id) nonce found [] [] true ch ⟨id, rfl, hid id rfl⟩ hn) hm
    obtain ⟨a, ha, hne⟩ := (discloses_kind hd).2.1 ht
    rw [hdec] at ha
    cases ha
    exact hne rfl
  split
  · split
    · rename_i hr
      exact .quiet hr (by simp)
    · rename_i hr
      exact .quiet hr (hshort _)
    · rename_i hr
      split
      · split
        · exact .paid hr rfl
        · exact .quiet hr (by simp)
      · exact .quiet hr (hshort _)
  · exact .stay (by simp)

theorem takes_standardOffer (E : Env Sig) (hpr : ProtocolOk E.pr) (c : Core Sig) (m : Msg) {cid : Option Id} {nonce ttl : Int} {ds : List (List Char)}
    {ch v : List Char} (hreq : decode clientStandardDiscoverOfferRequest m = .ok (cid, nonce, ttl, ds, ch, v)) : Takes E c ch v (standardOffer E c m) := by
  unfold standardOffer
  rw [hreq]
  dsimp only
  split
  · exact .stay (by simp)
  obtain ⟨hid, hn⟩ := standardOffer_req hreq
  have hshort : ∀ (x : Msg), Out.message x ∈ respond E c clientStandardDiscoverOfferResponse (.status 400) (.status 500)
      (cid, nonce, false, [], [], true, ch) → ¬ Discloses x := by
    intro x hm hd
    cases cid with
    | none => exact none_silent x hm
    | some id =>
      obtain ⟨ht, hdec⟩ := respond_decode (by simp) (by simp)
        (C30_clientStandardDiscoverOfferResponse E.pr hpr (some id) nonce false [] [] true ch ⟨id, rfl, hid id rfl⟩ hn (by simp)) hm
      obtain ⟨a, ha, hne⟩ := (discloses_kind hd).2.2.1 ht
      rw [hdec] at ha
      cases ha
      exact hne rfl
  split
  · rename_i hr
    exact .quiet hr (by simp)
  · rename_i hr
    exact .quiet hr hshort
  · rename_i hr
    split
    · split
      · exact .paid hr rfl
      · exact .quiet hr (by simp)
    · exact .quiet hr hshort

theorem takes_dhtV2 (E : Env Sig) (c : Core Sig) (m : Msg) {cid : Option Id} {nonce ttl num : Int} {inc : Bool} {ch v : List Char}
    (hreq : decode clientDHTDiscoverRequestV2 m = .ok (cid, nonce, ttl, num, inc, ch, v)) : Takes E c ch v (dhtV2 E c m) := by
  unfold dhtV2
  rw [hreq]
  dsimp only
  split
  · exact .stay (by simp)
  split
  · exact .stay (by simp)
  split
  · exact .stay (by simp)
  split
  · rename_i hr
    exact .quiet hr (by simp)
  · rename_i hr
    exact .quiet hr (by simp)
  · rename_i id _ rs _ _ c1 amount hr
    have hi := dhtV2Loop_inbound E id rs c1 ⟨[], [], []⟩
    split <;> rename_i hl <;> rw [hl] at hi <;> exact .paid hr hi

theorem takes_dhtOffer (E : Env Sig) (c : Core Sig) (m : Msg) {cid : Option Id} {nonce : Int} {dss : List (List (List Char))} {ids : List Id} {ch v : List Char}
    (hreq : decode clientDHTDiscoverOfferRequest m = .ok (cid, nonce, dss, ids, ch, v)) : Takes E c ch v (dhtOffer E c m) := by
  unfold dhtOffer
  rw [hreq]
  dsimp only
  split
  · rename_i hr
    exact .quiet hr (by simp)
  · rename_i hr
    exact .quiet hr (by simp)
  · rename_i c1 amount hr
    have hi := dhtOfferLoop_inbound E cid nonce ids dss c1 ⟨[], [], []⟩
    split <;> rename_i hl <;> rw [hl] at hi <;> exact .paid hr hi

theorem takes_peerDhtV2 (E : Env Sig) (c : Core Sig) (m : Msg) {gw cid : Option Id} {nonce ttl : Int} {ch v : List Char}
    (hreq : decode gatewayDHTDiscoverRequestV2 m = .ok (gw, cid, nonce, ttl, ch, v)) : Takes E c ch v (peerDhtV2 E c m) := by
  unfold peerDhtV2
  rw [hreq]
  dsimp only
  split
  · exact .stay (by simp)
  · exact .stay (by simp)
  split
  · exact .stay (by simp)
  split
  · rename_i hr
    exact .quiet hr (by simp)
  · rename_i hr
    exact .quiet hr (by simp)
  · rename_i hr
    repeat' split
    all_goals exact .paid hr rfl

theorem takes_peerDhtOffer (E : Env Sig) (c : Core Sig) (m : Msg) {cid : Option Id} {nonce : Int} {ds : List (List Char)} {ch v : List Char}
    (hreq : decode gatewayDHTDiscoverOfferRequest m = .ok (cid, nonce, ds, ch, v)) : Takes E c ch v (peerDhtOffer E c m) := by
  unfold peerDhtOffer
  rw [hreq]
  dsimp only
  split
  · rename_i hr
    exact .quiet hr (by simp)
  · rename_i hr
    exact .quiet hr (by simp)
  · rename_i hr
    repeat' split
    all_goals exact .paid hr rfl

/-- What a request does to the payments, and that a request for a paid service discloses something only if the voucher it carries is credited. -/
theorem serve_takes (E : Env Sig) (hpr : ProtocolOk E.pr) (c : Core Sig) (k : Kind) (m : Msg) :
    Grown c.payment (serve E c k m).1.payment ∧
    (pays k = true → ∀ x, .message x ∈ (serve E c k m).2 → Discloses x → ∃ ch v amount, carries k m = some (ch, v) ∧ Credits E c ch v amount ∧
      Grown (Payment.receive E.verifyVoucher c.payment (String.ofList ch) (E.readVoucher v) (E.chain (String.ofList ch))).1 (serve E c k m).1.payment) := by
  have use : ∀ {k : Kind} {m : Msg} {ch v : List Char}, carries k m = some (ch, v) → Takes E c ch v (serve E c k m) →
      Grown c.payment (serve E c k m).1.payment ∧
      (pays k = true → ∀ x, .message x ∈ (serve E c k m).2 → Discloses x → ∃ ch v amount, carries k m = some (ch, v) ∧ Credits E c ch v amount ∧
        Grown (Payment.receive E.verifyVoucher c.payment (String.ofList ch) (E.readVoucher v) (E.chain (String.ofList ch))).1 (serve E c k m).1.payment) := by
    intro k m ch v hc ht
    refine ⟨ht.1, fun _ x hx hd => ?_⟩
    obtain ⟨a, h1, h2⟩ := ht.2 x hx hd
    exact ⟨ch, v, a, hc, h1, h2⟩
  cases k with
  | establishment =>
    refine ⟨?_, by simp [pays]⟩
    simp only [serve]; unfold establishment
    repeat' split
    all_goals exact .refl
  | standard =>
    refine ⟨?_, by simp [pays]⟩
    simp only [serve]; unfold standard
    repeat' split
    all_goals exact .refl
  | dht =>
    refine ⟨?_, by simp [pays]⟩
    simp only [serve]; unfold dht
    repeat' split
    all_goals exact .refl
  | peerDht =>
    refine ⟨?_, by simp [pays]⟩
    simp only [serve]; unfold peerDht
    repeat' split
    all_goals exact .refl
  | publishDht =>
    refine ⟨?_, by simp [pays]⟩
    simp only [serve]; unfold publishDht
    repeat' split
    all_goals exact .refl
  | publishGroup =>
    refine ⟨?_, by simp [pays]⟩
    simp only [serve]; unfold publishGroup
    repeat' split
    all_goals exact .refl
  | standardV2 =>
    cases hd : decode clientStandardDiscoverRequestV2 m with
    | panic => exact ⟨by simp only [serve]; unfold standardV2; rw [hd]; exact .refl, fun _ x hx => by simp [serve, standardV2, hd] at hx⟩
    | err => exact ⟨by simp only [serve]; unfold standardV2; rw [hd]; exact .refl, fun _ x hx => by simp [serve, standardV2, hd] at hx⟩
    | ok a =>
      obtain ⟨cid, nonce, ttl, ch, v⟩ := a
      exact use (by simp [carries, hd]) (takes_standardV2 E hpr c m hd)
  | standardOffer =>
    cases hd : decode clientStandardDiscoverOfferRequest m with
    | panic => exact ⟨by simp only [serve]; unfold standardOffer; rw [hd]; exact .refl, fun _ x hx => by simp [serve, standardOffer, hd] at hx⟩
    | err => exact ⟨by simp only [serve]; unfold standardOffer; rw [hd]; exact .refl, fun _ x hx => by simp [serve, standardOffer, hd] at hx⟩
    | ok a =>
      obtain ⟨cid, nonce, ttl, ds, ch, v⟩ := a
      exact use (by simp [carries, hd]) (takes_standardOffer E hpr c m hd)
  | dhtV2 =>
    cases hd : decode clientDHTDiscoverRequestV2 m with
    | panic => exact ⟨by simp only [serve]; unfold dhtV2; rw [hd]; exact .refl, fun _ x hx => by simp [serve, dhtV2, hd] at hx⟩
    | err => exact ⟨by simp only [serve]; unfold dhtV2; rw [hd]; exact .refl, fun _ x hx => by simp [serve, dhtV2, hd] at hx⟩
    | ok a =>
      obtain ⟨cid, nonce, ttl, num, inc, ch, v⟩ := a
      exact use (by simp [carries, hd]) (takes_dhtV2 E c m hd)
  | dhtOffer =>
    cases hd : decode clientDHTDiscoverOfferRequest m with
    | panic => exact ⟨by simp only [serve]; unfold dhtOffer; rw [hd]; exact .refl, fun _ x hx => by simp [serve, dhtOffer, hd] at hx⟩
    | err => exact ⟨by simp only [serve]; unfold dhtOffer; rw [hd]; exact .refl, fun _ x hx => by simp [serve, dhtOffer, hd] at hx⟩
    | ok a =>
      obtain ⟨cid, nonce, dss, ids, ch, v⟩ := a
      exact use (by simp [carries, hd]) (takes_dhtOffer E c m hd)
  | peerDhtV2 =>
    cases hd : decode gatewayDHTDiscoverRequestV2 m with
    | panic => exact ⟨by simp only [serve]; unfold peerDhtV2; rw [hd]; exact .refl, fun _ x hx => by simp [serve, peerDhtV2, hd] at hx⟩
    | err => exact ⟨by simp only [serve]; unfold peerDhtV2; rw [hd]; exact .refl, fun _ x hx => by simp [serve, peerDhtV2, hd] at hx⟩
    | ok a =>
      obtain ⟨gw, cid, nonce, ttl, ch, v⟩ := a
      exact use (by simp [carries, hd]) (takes_peerDhtV2 E c m hd)
  | peerDhtOffer =>
    cases hd : decode gatewayDHTDiscoverOfferRequest m with
    | panic => exact ⟨by simp only [serve]; unfold peerDhtOffer; rw [hd]; exact .refl, fun _ x hx => by simp [serve, peerDhtOffer, hd] at hx⟩
    | err => exact ⟨by simp only [serve]; unfold peerDhtOffer; rw [hd]; exact .refl, fun _ x hx => by simp [serve, peerDhtOffer, hd] at hx⟩
    | ok a =>
      obtain ⟨cid, nonce, ds, ch, v⟩ := a
      exact use (by simp [carries, hd]) (takes_peerDhtOffer E c m hd)

end FcRetrieval.Gateway
