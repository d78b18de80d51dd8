import Verif.Props.GatewayFunds
import Verif.Props.GatewayStore
/-!
# C97, C100, C102: crashes, money without an answer, and what peers are paid
-/
set_option linter.unusedSimpArgs false

namespace FcRetrieval.Gateway
open FcRetrieval.Ids (Id)
open FcRetrieval.Message (Msg)
open FcRetrieval.Merkle (Hash exId exId_proper)
open FcRetrieval.Offer (CidOffer Built terms)
open FcRetrieval.Crypto (KeyPair)
open FcRetrieval.Wire
open FcRetrieval.Codecs
open FcRetrieval.Payment (Addr Voucher)

variable {Sig : Type}

/-! ## C97 -/

/-- Unsigned messages of 18 bytes. -/
def exBadGateway (code : Int) : Msg := ⟨code, 1, none, some (utf8Bytes "{\"gateway_id\":\"x\"}".toList), []⟩
def exBadProvider (code : Int) : Msg := ⟨code, 1, none, some (utf8Bytes "{\"provider_id\":\"x\"}".toList), []⟩

/-- **C97 is false**: whoever can open a connection to a gateway, registered or not, crashes it with one unsigned message, in
whatever state it is. -/
theorem C97_refuted (E : Env Sig) (c : Core Sig) :
    serve E c .peerDht (exBadGateway 203) = (c, [.panic]) ∧ serve E c .peerDhtV2 (exBadGateway 207) = (c, [.panic]) ∧
      serve E c .publishDht (exBadProvider 302) = (c, [.panic]) := by
  have h1 : (match decode gatewayDHTDiscoverRequest (exBadGateway 203) with | .ok (none, _) => true | _ => false) = true := by decide +kernel
  have h2 : (match decode gatewayDHTDiscoverRequestV2 (exBadGateway 207) with | .ok (none, _) => true | _ => false) = true := by decide +kernel
  have h3 : ∀ H, decode (providerPublishDHTOfferRequest H) (exBadProvider 302) = .ok (none, 0, []) := by
    intro H
    have hj : (match Message.parseText ((exBadProvider 302).body.getD []) with
        | some (.obj [(k, .str s)]) => k == "provider_id" && s == ['x'] | _ => false) = true := by decide +kernel
    have hx : Ids.fromHex ['x'] = none := by decide +kernel
    split at hj
    · rename_i k s hp
      simp at hj
      obtain ⟨rfl, rfl⟩ := hj
      unfold decode
      rw [hp]
      simp [exBadProvider, providerPublishDHTOfferRequest, decObj, decFields, Res.ofOption, hx, str, i64, slice, field, decStr, decI64, decNum, Bind.bind, Res.bind]
      rfl
    · cases hj
  refine ⟨?_, ?_, ?_⟩
  · split at h1
    · rename_i hd
      simp only [serve, peerDht, hd, senderKey]
    · cases h1
  · split at h2
    · rename_i hd
      simp only [serve, peerDhtV2, hd, senderKey]
    · cases h2
  · simp only [serve, publishDht, h3, senderKey]

theorem senderKey_calm {E : Env Sig} {look : Id → Option Register.Record} {id : Option Id} {m : Msg} (hid : id ≠ none)
    (hkeys : ∀ i r, look i = some r → Crypto.decodePublicKey r.signingKey ≠ .panic) : senderKey E look id m ≠ .panic := by
  unfold senderKey
  cases id with
  | none => exact absurd rfl hid
  | some i =>
    dsimp only
    cases hl : look i with
    | none => simp
    | some r =>
      dsimp only [signingKey]
      cases hd : Crypto.decodePublicKey r.signingKey with
      | panic => exact absurd hd (hkeys i r hl)
      | err => simp [Res.bind_err]
      | ok k =>
        simp only [Res.bind_ok]
        split <;> simp

theorem respond_calm {α : Type} {E : Env Sig} {c : Core Sig} {codec : Codec α} {a : α} (hd : Delivers codec E.pr a) :
    Out.panic ∉ respond E c codec .invalid .invalid a := by
  obtain ⟨m, he, -⟩ := hd
  unfold respond
  rw [he]
  dsimp only
  split <;> simp

/-- What holds of C97: a search request of a peer with well-formed identifiers does not crash a gateway whose stored offers and
registered keys are well-formed. -/
theorem C97_peerDht_partial (E : Env Sig) (hpr : ProtocolOk E.pr) (c : Core Sig) (m : Msg) (gw : Option Id) (id : Id) (nonce ttl : Int) (ch v : List Char)
    (hreq : decode gatewayDHTDiscoverRequest m = .ok (gw, some id, nonce, ttl, ch, v)) (hgw : gw ≠ none)
    (hkeys : ∀ i r, E.gateway i = some r → Crypto.decodePublicKey r.signingKey ≠ .panic)
    (offers : List CidOffer) (found : Bool) (hoff : SqlOffer.getOffers E.H E.order E.off E.now c.db id = .ok (offers, found))
    (hr : ∀ x ∈ offers.map (fun o => Offer.subOffer E.H o id), Offer.SubInRange x) :
    Out.panic ∉ (serve E c .peerDht m).2 := by
  have hq := peerDht_req hreq
  have hs := senderKey_calm (E := E) (m := m) hgw hkeys
  simp only [serve, peerDht, hreq]
  split
  · rename_i h; exact absurd h hs
  · simp
  · split
    · simp
    · simp only [getOffers, hoff]
      exact respond_calm (C30_gatewayDHTDiscoverResponse E.pr hpr (some id) nonce found _ _ ⟨id, rfl, hq.1 id rfl⟩ hq.2 hr)

/-- The same for the paid search, given the state of the channel on chain is readable. -/
theorem C97_peerDhtV2_partial (E : Env Sig) (hpr : ProtocolOk E.pr) (c : Core Sig) (m : Msg) (gw : Option Id) (id : Id) (nonce ttl : Int) (ch v : List Char)
    (hreq : decode gatewayDHTDiscoverRequestV2 m = .ok (gw, some id, nonce, ttl, ch, v)) (hgw : gw ≠ none)
    (hkeys : ∀ i r, E.gateway i = some r → Crypto.decodePublicKey r.signingKey ≠ .panic)
    (hpay : (Payment.receive E.verifyVoucher c.payment (String.ofList ch) (E.readVoucher v) (E.chain (String.ofList ch))).2 ≠ .panic)
    (offers : List CidOffer) (found : Bool) (hoff : SqlOffer.getOffers E.H E.order E.off E.now c.db id = .ok (offers, found))
    (hne : ∀ o ∈ offers, o.providerID ≠ none) :
    Out.panic ∉ (serve E c .peerDhtV2 m).2 := by
  have hq := peerDhtV2_req hreq
  have hs := senderKey_calm (E := E) (m := m) hgw hkeys
  simp only [serve, peerDhtV2, hreq]
  split
  · rename_i h; exact absurd h hs
  · simp
  · split
    · simp
    · split
      · rename_i h
        exact absurd (receive_snd h) hpay
      · simp
      · simp only [getOffers, hoff, digests_eq E offers hne]
        split
        all_goals exact respond_calm (C30_gatewayDHTDiscoverResponseV2 E.pr hpr (some id) nonce found _ _ _ _ ⟨id, rfl, hq.1 id rfl⟩ hq.2)

/-- The hypotheses can be met, by an authentic request that is answered. -/
example : ∃ m, Authentic exEnv exEnv.gateway (some (exId 3)) m exPub ∧ Out.panic ∉ (serve exEnv exCore .peerDht m).2 := by
  obtain ⟨m, hd, ha⟩ := exSigned (C30_gatewayDHTDiscoverRequest exEnv.pr defaultProtocolOk (some (exId 3)) (some (exId 2)) 7 2000 [] []
    (exIdOk 3) (exIdOk 2) ⟨by decide, by decide⟩ ⟨by decide, by decide⟩) exEnv.gateway (exId 3) (by simp [exEnv])
  refine ⟨m, ha, C97_peerDht_partial exEnv defaultProtocolOk exCore m _ (exId 2) 7 2000 [] [] hd (by simp) ?_ [exSingle] true exCore_offers exSub_ok⟩
  intro i r hr
  simp only [exEnv] at hr
  split at hr
  · cases hr
    rw [exRecord_key]
    simp
  · cases hr

/-! ## C100 -/

theorem offersByDigest_unknown {E : Env Sig} {c : Core Sig} {cid : Option Id} : ∀ {ds : List (List Char)} {d : List Char}, d ∈ ds →
    SqlOffer.getByDigest E.H E.order E.off E.now c.db (readDigest E d) = .ok none → offersByDigest E c cid ds = .panic
  | e :: ds, d, hd, h => by
    unfold offersByDigest
    rcases List.mem_cons.1 hd with rfl | hd
    · rw [h]
    · split
      · rename_i hx _
        rw [offersByDigest_unknown hd h]
        rfl
      · rfl

/-- **C100 is false**: a client, or a peer, that pays in full for offers of which one is not (or no longer) held gets no answer:
the handler crashes, and the payment is kept. -/
theorem C100_standardOffer_refuted (E : Env Sig) (c : Core Sig) (m : Msg) (cid : Option Id) (nonce ttl : Int) (ds : List (List Char)) (ch v : List Char)
    (hreq : decode clientStandardDiscoverOfferRequest m = .ok (cid, nonce, ttl, ds, ch, v)) (httl : ¬ E.now > ttl)
    (amount : Int) (hcred : Credits E c ch v amount) (hpays : c.offerPrice * ds.length ≤ amount)
    (d : List Char) (hd : d ∈ ds) (hunknown : SqlOffer.getByDigest E.H E.order E.off E.now c.db (readDigest E d) = .ok none) :
    serve E c .standardOffer m =
      ({ c with payment := (Payment.receive E.verifyVoucher c.payment (String.ofList ch) (E.readVoucher v) (E.chain (String.ofList ch))).1 }, [.panic]) := by
  simp only [serve, standardOffer, hreq]
  rw [if_neg httl, receive_credited hcred]
  dsimp only
  rw [if_pos hpays, offersByDigest_unknown hd hunknown]
  rfl

/-- Against C100 and C97: the request of a peer, which nobody signs, kills the process. -/
theorem C100_peerDhtOffer_refuted (E : Env Sig) (c : Core Sig) (m : Msg) (cid : Option Id) (nonce : Int) (ds : List (List Char)) (ch v : List Char)
    (hreq : decode gatewayDHTDiscoverOfferRequest m = .ok (cid, nonce, ds, ch, v))
    (amount : Int) (hcred : Credits E c ch v amount)
    (d : List Char) (hd : d ∈ ds) (hunknown : SqlOffer.getByDigest E.H E.order E.off E.now c.db (readDigest E d) = .ok none) :
    (serve E c .peerDhtOffer m).2 = [.panic] ∧
      (serve E c .peerDhtOffer m).1.payment = (Payment.receive E.verifyVoucher c.payment (String.ofList ch) (E.readVoucher v) (E.chain (String.ofList ch))).1 := by
  simp only [serve, peerDhtOffer, hreq]
  rw [receive_credited hcred]
  dsimp only
  rw [offersByDigest_unknown hd hunknown]
  exact ⟨rfl, rfl⟩

/-- The hypotheses can be met: 5 paid for one offer at a price of 2, with a digest that no offer has. -/
example : ∃ m, (serve exEnv exCore .standardOffer m).2 = [.panic] := by
  obtain ⟨m, hd⟩ := exDecodes (C30_clientStandardDiscoverOfferRequest exEnv.pr defaultProtocolOk (some (exId 2)) 7 2000 [['0', '0']] ['c'] ['5']
    (exIdOk 2) ⟨by decide, by decide⟩ ⟨by decide, by decide⟩)
  exact ⟨m, by rw [C100_standardOffer_refuted exEnv exCore m _ 7 2000 [['0', '0']] ['c'] ['5'] hd (by decide) 5 exCore_credits5 (by decide) ['0', '0']
    (by simp) (by decide +kernel)]⟩

/-! ## C102 -/

theorem request_asks {α : Type} {codec : Codec α} {E : Env Sig} {c : Core Sig} (hk : CanSign E c) {a : α} (hd : Delivers codec E.pr a) (id : Id) :
    ∃ req r, request E c id (encode codec E.pr a) = ([.asked id req], r) ∧ decode codec req = .ok a := by
  obtain ⟨m, he, -, -, -, hsig⟩ := hd
  unfold request
  rw [he]
  obtain ⟨sig, hs⟩ := Option.isSome_iff_exists.1 (hk (Message.toSign m))
  simp only [Message.sign, hs]
  exact ⟨_, _, rfl, (hsig sig).2⟩

/-- One gateway to ask: what is paid and what is asked follows from the outcome of the payment. -/
theorem dhtOffer_single (E : Env Sig) (hpr : ProtocolOk E.pr) (c : Core Sig) (hk : CanSign E c) (m : Msg) (id gid : Id) (nonce : Int) (ds : List (List Char))
    (ch v : List Char) (hreq : decode clientDHTDiscoverOfferRequest m = .ok (some id, nonce, [ds], [gid], ch, v))
    (r : Register.Record) (hg : E.gateway gid = some r) (amount : Int) (hcred : Credits E c ch v amount)
    (c' : Core Sig) (pay : Option (Addr × Voucher Sig))
    (hpay : payPeerOffer E (receive E c ch v).1 (String.ofList r.address) ((ds.length : Int) * c.offerPrice) = (c', .ok pay)) :
    spent (dhtOffer E c m).2 = (pay.map (fun p => (String.ofList r.address, p.2))).toList ∧
      ∃ req, Out.asked gid req ∈ (dhtOffer E c m).2 ∧ decode gatewayDHTDiscoverOfferRequest req =
        .ok (some id, nonce, ds, (pay.map (fun p => p.1.toList)).getD [], (pay.map (fun p => E.showVoucher p.2)).getD []) := by
  have hq := dhtOffer_req hreq
  obtain ⟨inb, hc1⟩ := receive_frame (receive_credited hcred)
  have hprice : (receive E c ch v).1.offerPrice = c.offerPrice := by rw [hc1]
  have hk' : CanSign E c' := by
    obtain ⟨p, rfl⟩ := payPeerOffer_frame hpay
    rw [hc1]
    exact hk
  obtain ⟨req, resp, hr, hdec⟩ := request_asks hk' (C30_gatewayDHTDiscoverOfferRequest E.pr hpr (some id) nonce ds
    ((pay.map (fun p => p.1.toList)).getD []) ((pay.map (fun p => E.showVoucher p.2)).getD []) ⟨id, rfl, hq.1 id rfl⟩ hq.2.1) gid
  have hloop : spent (dhtOfferLoop E (some id) nonce (receive E c ch v).1 [gid] [ds] ⟨[], [], []⟩).2.1 = (pay.map (fun p => (String.ofList r.address, p.2))).toList ∧
      Out.asked gid req ∈ (dhtOfferLoop E (some id) nonce (receive E c ch v).1 [gid] [ds] ⟨[], [], []⟩).2.1 := by
    unfold dhtOfferLoop
    rw [hg]
    dsimp only
    rw [hprice, hpay]
    dsimp only
    rw [hr]
    cases pay <;> (split <;> (rename_i h; cases h; simp [spent_append, spent, dhtOfferLoop]))
  unfold dhtOffer
  rw [hreq]
  dsimp only
  rw [receive_credited hcred]
  dsimp only
  generalize hw : (if amount < _ then _ else _ : List (Out Sig)) = warn
  have hwarn : spent warn = [] := by
    subst hw
    split <;> rfl
  cases hl : dhtOfferLoop E (some id) nonce (receive E c ch v).1 [gid] [ds] ⟨[], [], []⟩ with
  | mk c2 rest =>
    obtain ⟨out, ok⟩ := rest
    rw [hl] at hloop
    cases ok with
    | none => exact ⟨by simpa [spent_append, hwarn] using hloop.1, req, by simp [hloop.2], hdec⟩
    | some k =>
      dsimp only
      refine ⟨?_, req, by simp [hloop.2], hdec⟩
      rw [spent_append, spent_append, hwarn, respond_spent rfl rfl]
      simpa using hloop.1

/-- What holds of C102: a peer whose channel has the funds is paid the price of the offers asked of it, and the request carries that
voucher. -/
theorem C102_partial (E : Env Sig) (hpr : ProtocolOk E.pr) (c : Core Sig) (hk : CanSign E c) (m : Msg) (id gid : Id) (nonce : Int) (ds : List (List Char))
    (ch v : List Char) (hreq : decode clientDHTDiscoverOfferRequest m = .ok (some id, nonce, [ds], [gid], ch, v))
    (r : Register.Record) (hg : E.gateway gid = some r) (amount : Int) (hcred : Credits E c ch v amount)
    (o : Payment.Chan Sig) (hout : c.payment.outbound (String.ofList r.address) = some o)
    (hfunds : o.redeemed + (ds.length : Int) * c.offerPrice ≤ o.balance) (hsign : ∀ b, E.signVoucher b ≠ none) :
    ∃ v' req, spent (serve E c .dhtOffer m).2 = [(String.ofList r.address, v')] ∧
      v'.body.amount = (o.lane 0).redeemed + (ds.length : Int) * c.offerPrice ∧
      Out.asked gid req ∈ (serve E c .dhtOffer m).2 ∧
      decode gatewayDHTDiscoverOfferRequest req = .ok (some id, nonce, ds, o.addr.toList, E.showVoucher v') := by
  obtain ⟨inb, hc1⟩ := receive_frame (receive_credited hcred)
  have hpay : ∃ c' v', payPeerOffer E (receive E c ch v).1 (String.ofList r.address) ((ds.length : Int) * c.offerPrice) =
      (c', .ok (some (o.addr, v'))) ∧ v'.body.amount = (o.lane 0).redeemed + (ds.length : Int) * c.offerPrice := by
    rw [hc1]
    unfold payPeerOffer Payment.pay
    dsimp only
    rw [hout]
    dsimp only
    rw [if_neg (by omega)]
    cases hb : E.signVoucher ⟨o.addr, 0, (o.lane 0).nonce, (o.lane 0).redeemed + (ds.length : Int) * c.offerPrice⟩ with
    | none => exact absurd hb (hsign _)
    | some sig => exact ⟨_, _, rfl, rfl⟩
  obtain ⟨c', v', hpay, hv⟩ := hpay
  obtain ⟨h1, req, h2, h3⟩ := dhtOffer_single E hpr c hk m id gid nonce ds ch v hreq r hg amount hcred c' _ hpay
  exact ⟨v', req, h1, hv, h2, h3⟩

/-- **C102 is false**: a peer without a channel, to whom one is opened, is paid the price of a search however many offers are asked
of it and whatever they cost. -/
theorem C102_topup_refuted (E : Env Sig) (hpr : ProtocolOk E.pr) (c : Core Sig) (hk : CanSign E c) (m : Msg) (id gid : Id) (nonce : Int) (ds : List (List Char))
    (ch v : List Char) (hreq : decode clientDHTDiscoverOfferRequest m = .ok (some id, nonce, [ds], [gid], ch, v))
    (r : Register.Record) (hg : E.gateway gid = some r) (amount : Int) (hcred : Credits E c ch v amount)
    (hout : c.payment.outbound (String.ofList r.address) = none) (addr : Addr) (htop : E.topups (String.ofList r.address) 0 = .executed addr)
    (hfunds : c.searchPrice ≤ c.topupAmount) (hsign : ∀ b, E.signVoucher b ≠ none) :
    ∃ v' req, spent (serve E c .dhtOffer m).2 = [(String.ofList r.address, v')] ∧ v'.body.amount = c.searchPrice ∧
      Out.asked gid req ∈ (serve E c .dhtOffer m).2 ∧
      decode gatewayDHTDiscoverOfferRequest req = .ok (some id, nonce, ds, addr.toList, E.showVoucher v') := by
  obtain ⟨inb, hc1⟩ := receive_frame (receive_credited hcred)
  have hpay : ∃ c' v', payPeerOffer E (receive E c ch v).1 (String.ofList r.address) ((ds.length : Int) * c.offerPrice) =
      (c', .ok (some (addr, v'))) ∧ v'.body.amount = c.searchPrice := by
    rw [hc1]
    unfold payPeerOffer Payment.pay
    dsimp only
    rw [hout]
    dsimp only
    unfold Payment.topup
    rw [htop, hout]
    simp only [Payment.topupCreate, Payment.put, if_true]
    rw [if_neg (by simp; omega)]
    split
    · rename_i h
      split at h
      · rename_i hb; exact absurd hb (hsign _)
      · cases h
    · rename_i h
      split at h
      · cases h
      · cases h
        exact ⟨_, _, rfl, by simp [Payment.Chan.lane, Payment.newLane]⟩
    · rename_i h
      split at h <;> cases h
  obtain ⟨c', v', hpay, hv⟩ := hpay
  obtain ⟨h1, req, h2, h3⟩ := dhtOffer_single E hpr c hk m id gid nonce ds ch v hreq r hg amount hcred c' _ hpay
  exact ⟨v', req, h1, hv, h2, h3⟩

/-- **C102 is false**, further: when a top-up is worth less than the price of a search, the channel is opened and funded, and the
request goes out with no payment at all. -/
theorem C102_unpaid_refuted (E : Env Sig) (hpr : ProtocolOk E.pr) (c : Core Sig) (hk : CanSign E c) (m : Msg) (id gid : Id) (nonce : Int) (ds : List (List Char))
    (ch v : List Char) (hreq : decode clientDHTDiscoverOfferRequest m = .ok (some id, nonce, [ds], [gid], ch, v))
    (r : Register.Record) (hg : E.gateway gid = some r) (amount : Int) (hcred : Credits E c ch v amount)
    (hout : c.payment.outbound (String.ofList r.address) = none) (addr : Addr) (htop : E.topups (String.ofList r.address) 0 = .executed addr)
    (hfunds : c.topupAmount < c.searchPrice) :
    ∃ req, spent (serve E c .dhtOffer m).2 = [] ∧ Out.asked gid req ∈ (serve E c .dhtOffer m).2 ∧
      decode gatewayDHTDiscoverOfferRequest req = .ok (some id, nonce, ds, [], []) := by
  obtain ⟨inb, hc1⟩ := receive_frame (receive_credited hcred)
  have hpay : ∃ c', payPeerOffer E (receive E c ch v).1 (String.ofList r.address) ((ds.length : Int) * c.offerPrice) = (c', .ok none) := by
    rw [hc1]
    unfold payPeerOffer Payment.pay
    dsimp only
    rw [hout]
    dsimp only
    unfold Payment.topup
    rw [htop, hout]
    simp only [Payment.topupCreate, Payment.put, if_true]
    rw [if_pos (by simp; omega)]
    exact ⟨_, rfl⟩
  obtain ⟨c', hpay⟩ := hpay
  obtain ⟨h1, req, h2, h3⟩ := dhtOffer_single E hpr c hk m id gid nonce ds ch v hreq r hg amount hcred c' _ hpay
  exact ⟨req, h1, h2, h3⟩

/-- A gateway that has no channel to the peer yet, on a chain that opens one. -/
def exTopEnv : Env Unit := { exEnv with topups := fun _ _ => .executed "new" }
def exPoor : Core Unit := { exCore with payment := ⟨"gw", fun _ => none, fun _ => none⟩ }

theorem exPoor_credits : Credits exTopEnv exPoor ['c'] ['5'] 5 := by
  unfold Credits
  decide +kernel

/-- The hypotheses can be met: three offers at 2 each are asked for, and 3 is paid. -/
example : ∃ m v', spent (serve exTopEnv exPoor .dhtOffer m).2 = [("p", v')] ∧ v'.body.amount = 3 := by
  obtain ⟨m, hd⟩ := exDecodes (C30_clientDHTDiscoverOfferRequest exEnv.pr defaultProtocolOk (some (exId 2)) 7 [[['a'], ['b'], ['c']]] [exId 3] ['c'] ['5']
    (exIdOk 2) ⟨by decide, by decide⟩ (by intro p hp; simp at hp; subst hp; exact exId_proper 3))
  obtain ⟨v', req, h1, h2, -⟩ := C102_topup_refuted exTopEnv defaultProtocolOk exPoor exCore_signs m (exId 2) (exId 3) 7 [['a'], ['b'], ['c']] ['c'] ['5'] hd exRecord
    (by simp [exTopEnv, exEnv]) 5 exPoor_credits rfl "new" rfl (by decide) (by simp [exTopEnv, exEnv])
  exact ⟨m, v', h1, h2⟩

/-- And with a top-up of 1, nothing is. -/
example : ∃ m req, spent (serve exTopEnv { exPoor with topupAmount := 1 } .dhtOffer m).2 = [] ∧
    Out.asked (exId 3) req ∈ (serve exTopEnv { exPoor with topupAmount := 1 } .dhtOffer m).2 := by
  obtain ⟨m, hd⟩ := exDecodes (C30_clientDHTDiscoverOfferRequest exEnv.pr defaultProtocolOk (some (exId 2)) 7 [[['a'], ['b'], ['c']]] [exId 3] ['c'] ['5']
    (exIdOk 2) ⟨by decide, by decide⟩ (by intro p hp; simp at hp; subst hp; exact exId_proper 3))
  obtain ⟨req, h1, h2, -⟩ := C102_unpaid_refuted exTopEnv defaultProtocolOk { exPoor with topupAmount := 1 } exCore_signs m (exId 2) (exId 3) 7 [['a'], ['b'], ['c']] ['c'] ['5'] hd exRecord
    (by simp [exTopEnv, exEnv]) 5 (show Credits exTopEnv exPoor ['c'] ['5'] 5 from exPoor_credits) rfl "new" rfl (by decide)
  exact ⟨m, req, h1, h2⟩

end FcRetrieval.Gateway
