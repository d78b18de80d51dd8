import Verif.Model.GatewayConc
import Verif.Lemmas.GatewayReplay
/-!
# Lemmas about requests served at the same time
-/

set_option linter.unusedSimpArgs false

namespace FcRetrieval.Gateway.Conc
open FcRetrieval.Ids (Id)
open FcRetrieval.Message (Msg)
open FcRetrieval.Payment (Addr Voucher ChainView RecvOut Mgr inC)
open FcRetrieval.Wire (encode decode)
open FcRetrieval.Codecs
open FcRetrieval.GatewayLife (carries)

variable {Sig : Type}

/-- Something is disclosed. -/
def Tells (outs : List (Out Sig)) : Prop := ∃ x, Out.message x ∈ outs ∧ Discloses x

/-- A program that does not receive any more, and discloses something only if `P`; `sp` is the price of a search. -/
def After (sp : Int) (P : Prop) : Prog Sig → Prop
  | .done outs => Tells outs → P
  | .find _ k => ∀ r, After sp P (k r)
  | .lookup _ _ k => ∀ r, After sp P (k r)
  | .receive _ _ _ => False
  | .create _ _ _ _ _ => False
  | .prices k => ∀ op, After sp P (k sp op)
  | .reprice _ k => After sp P k
  | .peers run k => (∀ c, (run c).1.payment.inbound = c.payment.inbound ∧ (run c).1.searchPrice = c.searchPrice) ∧ ∀ o r, After sp P (k o r)

/-- A program that discloses something only after receiving this voucher on this channel, credited with an amount that is
enough. -/
def Before (sp : Int) (need : Int → Prop) (ch v : List Char) : Prog Sig → Prop
  | .done outs => ¬ Tells outs
  | .find _ k => ∀ r, Before sp need ch v (k r)
  | .receive c t k => c = ch ∧ t = v ∧ (∀ a, After sp (need a) (k (.credited a))) ∧ After sp False (k .error) ∧ After sp False (k .panic)
  | _ => False

/-- The amount that a request has to bring for what it gets: only the handler of standard discoveries holds to the price of
a search. -/
def need (sp : Int) : Paid → Int → Prop
  | .standardV2, a => sp ≤ a
  | _, _ => True

theorem tells_nil : ¬ Tells ([] : List (Out Sig)) := by rintro ⟨x, h, -⟩; simp at h
theorem tells_panic : ¬ Tells ([.panic] : List (Out Sig)) := by rintro ⟨x, h, -⟩; simp at h
theorem tells_status {n : Nat} : ¬ Tells ([.status n] : List (Out Sig)) := by rintro ⟨x, h, -⟩; simp at h
theorem tells_invalid : ¬ Tells ([.invalid] : List (Out Sig)) := by rintro ⟨x, h, -⟩; simp at h

theorem before_standardV2 (E : Env Sig) (hpr : ProtocolOk E.pr) (sp : Int) (g : Core Sig) (m : Msg) {ch v : List Char}
    (hc : carries .standardV2 m = some (ch, v)) : Before sp (need sp .standardV2) ch v (standardV2 E g m) := by
  unfold standardV2
  cases hreq : decode clientStandardDiscoverRequestV2 m with
  | panic => simp [carries, hreq] at hc
  | err => simp [carries, hreq] at hc
  | ok a =>
    obtain ⟨cid, nonce, ttl, ch', v'⟩ := a
    simp only [carries, hreq, Option.some.injEq, Prod.mk.injEq] at hc
    obtain ⟨rfl, rfl⟩ := hc
    dsimp only
    split
    · exact tells_nil
    split
    · exact tells_panic
    rename_i id
    obtain ⟨hid, hn⟩ := standardV2_req hreq
    have hshort : ∀ (found : Bool), ¬ Tells (respond E g clientStandardDiscoverResponseV2 (.status 400) (.status 500)
        (some id, nonce, found, [], [], true, ch')) := by
      rintro found ⟨x, hm, hd⟩
      obtain ⟨ht, hdec⟩ := respond_decode (by simp) (by simp)
        (C30_clientStandardDiscoverResponseV2 E.pr hpr (some id) nonce found [] [] true ch' ⟨id, rfl, hid id rfl⟩ hn) hm
      obtain ⟨a, ha, hne⟩ := (discloses_kind hd).2.1 ht
      rw [hdec] at ha
      cases ha
      exact hne rfl
    intro r
    dsimp only
    split
    · refine ⟨rfl, rfl, fun a op => ?_, fun ht => hshort _ ht, fun ht => tells_panic ht⟩
      dsimp only
      split
      · rename_i hge
        split
        · exact fun _ => hge
        · exact fun ht => absurd ht tells_panic
      · exact fun ht => absurd ht (hshort _)
    · exact tells_panic

theorem before_standardOffer (E : Env Sig) (hpr : ProtocolOk E.pr) (sp : Int) (g : Core Sig) (m : Msg) {ch v : List Char}
    (hc : carries .standardOffer m = some (ch, v)) : Before sp (need sp .standardOffer) ch v (standardOffer E g m) := by
  unfold standardOffer
  cases hreq : decode clientStandardDiscoverOfferRequest m with
  | panic => simp [carries, hreq] at hc
  | err => simp [carries, hreq] at hc
  | ok a =>
    obtain ⟨cid, nonce, ttl, ds, ch', v'⟩ := a
    simp only [carries, hreq, Option.some.injEq, Prod.mk.injEq] at hc
    obtain ⟨rfl, rfl⟩ := hc
    dsimp only
    split
    · exact tells_nil
    obtain ⟨hid, hn⟩ := standardOffer_req hreq
    have hshort : ¬ Tells (respond E g clientStandardDiscoverOfferResponse (.status 400) (.status 500)
        (cid, nonce, false, [], [], true, ch')) := by
      rintro ⟨x, hm, hd⟩
      cases cid with
      | none => exact none_silent x hm
      | some id =>
        obtain ⟨ht, hdec⟩ := respond_decode (by simp) (by simp)
          (C30_clientStandardDiscoverOfferResponse E.pr hpr (some id) nonce false [] [] true ch' ⟨id, rfl, hid id rfl⟩ hn (by simp)) hm
        obtain ⟨a, ha, hne⟩ := (discloses_kind hd).2.2.1 ht
        rw [hdec] at ha
        cases ha
        exact hne rfl
    refine ⟨rfl, rfl, fun a op => ?_, fun ht => hshort ht, fun ht => tells_panic ht⟩
    dsimp only
    split
    · intro r
      dsimp only
      split <;> exact fun _ => trivial
    · exact fun _ => trivial

theorem payPeer_price {E : Env Sig} {c : Core Sig} {r : Addr} {a : Int} : (payPeer E c r a).1.searchPrice = c.searchPrice := by
  unfold payPeer
  split
  · rfl
  · rfl
  · split <;> rfl

theorem payPeerOffer_price {E : Env Sig} {c : Core Sig} {r : Addr} {a : Int} : (payPeerOffer E c r a).1.searchPrice = c.searchPrice := by
  unfold payPeerOffer
  split
  · rfl
  · rfl
  · split
    · rfl
    · split <;> rfl

theorem dhtV2Loop_price (E : Env Sig) (cid : Id) : ∀ (rs : List Register.Record) (c : Core Sig) (k : Contacts),
    (dhtV2Loop E cid c rs k).1.searchPrice = c.searchPrice
  | [], c, k => rfl
  | r :: rs, c, k => by
    unfold dhtV2Loop
    split
    · rfl
    · have h1 := payPeer_price (E := E) (c := c) (r := String.ofList r.address) (a := c.searchPrice)
      split <;> rename_i e1 <;> rw [e1] at h1
      · exact h1
      · split
        · exact h1
        · exact (dhtV2Loop_price E cid rs _ _).trans h1

theorem dhtOfferLoop_price (E : Env Sig) (cid : Option Id) (nonce : Int) : ∀ (ids : List Id) (dss : List (List (List Char))) (c : Core Sig) (k : Contacts),
    (dhtOfferLoop E cid nonce c ids dss k).1.searchPrice = c.searchPrice
  | [], dss, c, k => by simp [dhtOfferLoop]
  | id :: ids, [], c, k => by simp [dhtOfferLoop]
  | id :: ids, ds :: dss, c, k => by
    unfold dhtOfferLoop
    split
    · rfl
    · rename_i g _
      have h1 := payPeerOffer_price (E := E) (c := c) (r := String.ofList g.address) (a := (ds.length : Int) * c.offerPrice)
      split <;> rename_i e1 <;> rw [e1] at h1
      · exact h1
      · dsimp only
        split
        · exact h1
        · exact (dhtOfferLoop_price E cid nonce ids dss _ _).trans h1

theorem before_dhtV2 (E : Env Sig) (sp : Int) (g : Core Sig) (m : Msg) {ch v : List Char}
    (hc : carries .dhtV2 m = some (ch, v)) : Before sp (need sp .dhtV2) ch v (dhtV2 E g m) := by
  unfold dhtV2
  cases hreq : decode clientDHTDiscoverRequestV2 m with
  | panic => simp [carries, hreq] at hc
  | err => simp [carries, hreq] at hc
  | ok a =>
    obtain ⟨cid, nonce, ttl, num, inc, ch', v'⟩ := a
    simp only [carries, hreq, Option.some.injEq, Prod.mk.injEq] at hc
    obtain ⟨rfl, rfl⟩ := hc
    dsimp only
    split
    · exact tells_nil
    split
    · exact tells_panic
    split
    · exact tells_status
    refine ⟨rfl, rfl, fun a op => ⟨fun c => ⟨dhtV2Loop_inbound .., dhtV2Loop_price ..⟩, fun o r => ?_⟩, fun ht => tells_status ht, fun ht => tells_panic ht⟩
    dsimp only
    split <;> exact fun _ => trivial

theorem before_dhtOffer (E : Env Sig) (sp : Int) (g : Core Sig) (m : Msg) {ch v : List Char}
    (hc : carries .dhtOffer m = some (ch, v)) : Before sp (need sp .dhtOffer) ch v (dhtOffer E g m) := by
  unfold dhtOffer
  cases hreq : decode clientDHTDiscoverOfferRequest m with
  | panic => simp [carries, hreq] at hc
  | err => simp [carries, hreq] at hc
  | ok a =>
    obtain ⟨cid, nonce, dss, ids, ch', v'⟩ := a
    simp only [carries, hreq, Option.some.injEq, Prod.mk.injEq] at hc
    obtain ⟨rfl, rfl⟩ := hc
    dsimp only
    refine ⟨rfl, rfl, fun a op => ⟨fun c => ⟨dhtOfferLoop_inbound .., dhtOfferLoop_price ..⟩, fun o r => ?_⟩, fun ht => tells_status ht, fun ht => tells_panic ht⟩
    dsimp only
    split <;> exact fun _ => trivial

theorem before_peerDhtV2 (E : Env Sig) (sp : Int) (g : Core Sig) (m : Msg) {ch v : List Char}
    (hc : carries .peerDhtV2 m = some (ch, v)) : Before sp (need sp .peerDhtV2) ch v (peerDhtV2 E g m) := by
  unfold peerDhtV2
  cases hreq : decode gatewayDHTDiscoverRequestV2 m with
  | panic => simp [carries, hreq] at hc
  | err => simp [carries, hreq] at hc
  | ok a =>
    obtain ⟨gw, cid, nonce, ttl, ch', v'⟩ := a
    simp only [carries, hreq, Option.some.injEq, Prod.mk.injEq] at hc
    obtain ⟨rfl, rfl⟩ := hc
    dsimp only
    split
    · exact tells_panic
    · exact tells_invalid
    split
    · exact tells_invalid
    refine ⟨rfl, rfl, fun a => ?_, fun ht => tells_invalid ht, fun ht => tells_panic ht⟩
    dsimp only
    split
    · exact fun _ => trivial
    · intro r
      dsimp only
      split
      · split
        · intro op
          dsimp only
          split <;> exact fun _ => trivial
        · exact fun _ => trivial
      · exact fun _ => trivial

theorem before_peerDhtOffer (E : Env Sig) (sp : Int) (g : Core Sig) (m : Msg) {ch v : List Char}
    (hc : carries .peerDhtOffer m = some (ch, v)) : Before sp (need sp .peerDhtOffer) ch v (peerDhtOffer E g m) := by
  unfold peerDhtOffer
  cases hreq : decode gatewayDHTDiscoverOfferRequest m with
  | panic => simp [carries, hreq] at hc
  | err => simp [carries, hreq] at hc
  | ok a =>
    obtain ⟨cid, nonce, ds, ch', v'⟩ := a
    simp only [carries, hreq, Option.some.injEq, Prod.mk.injEq] at hc
    obtain ⟨rfl, rfl⟩ := hc
    dsimp only
    refine ⟨rfl, rfl, fun a r => ?_, fun ht => tells_invalid ht, fun ht => tells_panic ht⟩
    dsimp only
    split
    · intro op
      dsimp only
      split <;> exact fun _ => trivial
    · exact fun _ => trivial

theorem before_handler (E : Env Sig) (hpr : ProtocolOk E.pr) (sp : Int) (g : Core Sig) (p : Paid) (m : Msg) {ch v : List Char}
    (hc : carries p.kind m = some (ch, v)) : Before sp (need sp p) ch v (handler E g p m) := by
  cases p with
  | standardV2 => exact before_standardV2 E hpr sp g m hc
  | standardOffer => exact before_standardOffer E hpr sp g m hc
  | dhtV2 => exact before_dhtV2 E sp g m hc
  | dhtOffer => exact before_dhtOffer E sp g m hc
  | peerDhtV2 => exact before_peerDhtV2 E sp g m hc
  | peerDhtOffer => exact before_peerDhtOffer E sp g m hc

/-- A request that cannot be read is a request that carries nothing, and discloses nothing. -/
theorem handler_unread (E : Env Sig) (g : Core Sig) (p : Paid) (m : Msg) (hc : carries p.kind m = none) :
    ∃ o, handler E g p m = .done o ∧ ¬ Tells o := by
  cases p with
  | standardV2 =>
    simp only [handler, standardV2, carries, Paid.kind] at hc ⊢
    cases hreq : decode clientStandardDiscoverRequestV2 m with
    | panic => exact ⟨_, rfl, tells_panic⟩
    | err => exact ⟨_, rfl, tells_status⟩
    | ok a => obtain ⟨_, _, _, _, _⟩ := a; simp [hreq] at hc
  | standardOffer =>
    simp only [handler, standardOffer, carries, Paid.kind] at hc ⊢
    cases hreq : decode clientStandardDiscoverOfferRequest m with
    | panic => exact ⟨_, rfl, tells_panic⟩
    | err => exact ⟨_, rfl, tells_status⟩
    | ok a => obtain ⟨_, _, _, _, _, _⟩ := a; simp [hreq] at hc
  | dhtV2 =>
    simp only [handler, dhtV2, carries, Paid.kind] at hc ⊢
    cases hreq : decode clientDHTDiscoverRequestV2 m with
    | panic => exact ⟨_, rfl, tells_panic⟩
    | err => exact ⟨_, rfl, tells_status⟩
    | ok a => obtain ⟨_, _, _, _, _, _, _⟩ := a; simp [hreq] at hc
  | dhtOffer =>
    simp only [handler, dhtOffer, carries, Paid.kind] at hc ⊢
    cases hreq : decode clientDHTDiscoverOfferRequest m with
    | panic => exact ⟨_, rfl, tells_panic⟩
    | err => exact ⟨_, rfl, tells_status⟩
    | ok a => obtain ⟨_, _, _, _, _, _⟩ := a; simp [hreq] at hc
  | peerDhtV2 =>
    simp only [handler, peerDhtV2, carries, Paid.kind] at hc ⊢
    cases hreq : decode gatewayDHTDiscoverRequestV2 m with
    | panic => exact ⟨_, rfl, tells_panic⟩
    | err => exact ⟨_, rfl, tells_invalid⟩
    | ok a => obtain ⟨_, _, _, _, _, _⟩ := a; simp [hreq] at hc
  | peerDhtOffer =>
    simp only [handler, peerDhtOffer, carries, Paid.kind] at hc ⊢
    cases hreq : decode gatewayDHTDiscoverOfferRequest m with
    | panic => exact ⟨_, rfl, tells_panic⟩
    | err => exact ⟨_, rfl, tells_invalid⟩
    | ok a => obtain ⟨_, _, _, _, _⟩ := a; simp [hreq] at hc

end FcRetrieval.Gateway.Conc
