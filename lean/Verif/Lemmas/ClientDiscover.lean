import Verif.Lemmas.Client
/-! Discovery by the client. -/
set_option linter.unusedSimpArgs false

namespace FcRetrieval.Client
open FcRetrieval.Ids (Id)
open FcRetrieval.Message (Msg)
open FcRetrieval.Offer (SubOffer)
open FcRetrieval.Payment (Addr Voucher)
open FcRetrieval.Register (Record)
open FcRetrieval.Wire (Codec encode decode)
open FcRetrieval.Codecs
open FcRetrieval.Gateway (res_ok_of_bind ofOption_ok verify_snd)

variable {Sig : Type}

theorem encode_type {α : Type} {codec : Codec α} {pr : Message.Protocol} {a : α} {m : Msg} (h : encode codec pr a = .ok m) : m.type = codec.code := by
  unfold encode at h
  obtain ⟨v, -, h⟩ := res_ok_of_bind h
  obtain ⟨fs, -, h⟩ := res_ok_of_bind h
  cases h
  rfl

/-! ### offers -/

theorem checkSig_ok {P : Crypto.Prims} {k : Crypto.KeyPair} {s : List Char} {raw : Bytes} :
    Offer.checkSig P k s raw = .ok () ↔ Crypto.verifyMessage P k s raw = some true := by
  unfold Offer.checkSig
  split
  · simp [*]
  · rename_i h
    constructor
    · intro h'; cases h'
    · intro h'; exact absurd h' h

theorem verifyMerkleProof_ok {H : Merkle.Hash} {o : SubOffer} :
    Offer.verifyMerkleProof H o = .ok () ↔ Merkle.verify H o.merkleProof o.subCID o.merkleRoot = .ok true := by
  unfold Offer.verifyMerkleProof
  split <;> simp [*]

/-- The offer is genuine, and the record of its provider is complete. -/
theorem checkOffer_ok {E : Env Sig} {o : SubOffer} : checkOffer E o = .ok () ↔
    Genuine E o ∧ ∃ pid r, o.providerID = some pid ∧ E.provider pid = some r ∧ CompleteProvider r := by
  constructor
  · intro h
    unfold checkOffer at h
    obtain ⟨pid, hpid, h⟩ := res_ok_of_bind h
    obtain ⟨k, hk, h⟩ := res_ok_of_bind h
    obtain ⟨u, hu, h⟩ := res_ok_of_bind h
    obtain ⟨r, hr, hv, hk⟩ := checkedKey_ok hk
    cases ho : o.providerID with
    | none => rw [ho] at hpid; cases hpid
    | some p =>
      rw [ho] at hpid
      cases hpid
      unfold Offer.subVerify at hu
      obtain ⟨raw, hraw, hu⟩ := res_ok_of_bind hu
      rw [ho] at hraw
      exact ⟨⟨_, r, k, raw, ho, hr, hk, hraw, checkSig_ok.1 hu, verifyMerkleProof_ok.1 h⟩, _, r, rfl, hr, (validProvider_iff r).1 hv⟩
  · rintro ⟨⟨pid, r, k, raw, h1, h2, h3, h4, h5, h6⟩, pid', r', h7, h8, h9⟩
    rw [h1] at h7
    cases h7
    rw [h2] at h8
    cases h8
    unfold checkOffer checkedKey
    rw [h1]
    simp only [deref, Res.bind_ok, h2, (validProvider_iff r).2 h9, h3]
    unfold Offer.subVerify
    rw [h1, h4]
    simp only [Res.bind_ok, checkSig_ok.2 h5, verifyMerkleProof_ok.2 h6]

theorem checkOffers_ok {E : Env Sig} : ∀ {os l : List SubOffer}, checkOffers E os = .ok l → l.Sublist os ∧ ∀ o ∈ os, o ∈ l ↔ checkOffer E o = .ok () := by
  intro os
  induction os with
  | nil =>
    intro l h
    cases h
    exact ⟨.slnil, fun o ho => by cases ho⟩
  | cons o os ih =>
    intro l h
    unfold checkOffers at h
    split at h
    · cases h
    · rename_i he
      obtain ⟨h1, h2⟩ := ih h
      refine ⟨h1.cons _, fun x hx => ?_⟩
      rcases List.mem_cons.1 hx with rfl | hx
      · constructor
        · intro hm
          exact (h2 x (h1.subset hm)).1 hm
        · intro hk
          rw [he] at hk
          cases hk
      · exact h2 x hx
    · rename_i he
      obtain ⟨l', hl', h⟩ := res_ok_of_bind h
      cases h
      obtain ⟨h1, h2⟩ := ih hl'
      refine ⟨h1.cons_cons _, fun x hx => ?_⟩
      rcases List.mem_cons.1 hx with rfl | hx
      · simp [he]
      · constructor
        · intro hm
          rcases List.mem_cons.1 hm with rfl | hm
          · exact he
          · exact (h2 x hx).1 hm
        · intro hk
          exact List.mem_cons_of_mem _ ((h2 x hx).2 hk)

theorem checkOffers_panic {E : Env Sig} {os : List SubOffer} (h : ∀ o ∈ os, checkOffer E o ≠ .panic) : ∃ l, checkOffers E os = .ok l := by
  induction os with
  | nil => exact ⟨[], rfl⟩
  | cons o os ih =>
    obtain ⟨l, hl⟩ := ih (fun x hx => h x (List.mem_cons_of_mem _ hx))
    unfold checkOffers
    split
    · rename_i hp
      exact absurd hp (h o (List.mem_cons_self ..))
    · exact ⟨l, hl⟩
    · exact ⟨o :: l, by rw [hl]; rfl⟩

theorem takeValid_ok {E : Env Sig} {max : Int} : ∀ {os : List SubOffer} {n : Nat} {l : List SubOffer}, takeValid E max n os = .ok l →
    l.Sublist os ∧ (∀ o ∈ l, checkOffer E o = .ok ()) ∧ ((n : Int) < max → (l.length : Int) ≤ max - n) := by
  intro os
  induction os with
  | nil =>
    intro n l h
    cases h
    exact ⟨.slnil, fun o ho => (by cases ho), fun h => by simp; omega⟩
  | cons o os ih =>
    intro n l h
    unfold takeValid at h
    split at h
    · cases h
    · obtain ⟨h1, h2, h3⟩ := ih h
      exact ⟨h1.cons _, h2, h3⟩
    · rename_i he
      split at h
      · rename_i hm
        cases h
        refine ⟨List.singleton_sublist.2 (List.mem_cons_self ..), fun x hx => ?_, fun _ => by simp; omega⟩
        rw [List.mem_singleton] at hx
        rw [hx]
        exact he
      · rename_i hm
        obtain ⟨l', hl', h⟩ := res_ok_of_bind h
        cases h
        obtain ⟨h1, h2, h3⟩ := ih hl'
        refine ⟨h1.cons_cons _, fun x hx => ?_, fun hlt => ?_⟩
        · rcases List.mem_cons.1 hx with rfl | hx
          · exact he
          · exact h2 x hx
        · have := h3 (by omega)
          simp only [List.length_cons]
          omega

/-- With a maximum of zero or less there is no maximum. -/
theorem takeValid_none {E : Env Sig} {max : Int} (hm : max ≤ 0) : ∀ {os : List SubOffer} {n : Nat}, (∀ o ∈ os, checkOffer E o = .ok ()) →
    takeValid E max n os = .ok os := by
  intro os
  induction os with
  | nil => intro n _; rfl
  | cons o os ih =>
    intro n h
    unfold takeValid
    rw [h o (List.mem_cons_self ..)]
    dsimp only
    rw [if_neg (by omega), ih (fun x hx => h x (List.mem_cons_of_mem _ hx))]
    rfl

/-- If all offers pass, the first ones are taken. -/
theorem takeValid_all {E : Env Sig} {max : Int} : ∀ {os : List SubOffer} {n : Nat}, (n : Int) < max → (∀ o ∈ os, checkOffer E o = .ok ()) →
    takeValid E max n os = .ok (os.take (max - n).toNat) := by
  intro os
  induction os with
  | nil => intro n _ _; simp [takeValid]
  | cons o os ih =>
    intro n hn h
    unfold takeValid
    rw [h o (List.mem_cons_self ..)]
    dsimp only
    split
    · rename_i he
      have : (max - n).toNat = 1 := by omega
      rw [this]
      simp
    · rename_i he
      rw [ih (by omega) (fun x hx => h x (List.mem_cons_of_mem _ hx))]
      have : (max - n).toNat = (max - (n + 1 : Nat)).toNat + 1 := by omega
      rw [this, List.take_succ_cons]
      rfl

/-! ### payments -/

/-- What a payment does not change. -/
def Frame (c c' : Client Sig) : Prop := c'.settings = c.settings ∧ c'.toUse = c.toUse ∧ c'.active = c.active

theorem Frame.refl (c : Client Sig) : Frame c c := ⟨rfl, rfl, rfl⟩

theorem Frame.trans {a b c : Client Sig} (h : Frame a b) (h' : Frame b c) : Frame a c :=
  ⟨h'.1.trans h.1, h'.2.1.trans h.2.1, h'.2.2.trans h.2.2⟩

theorem paymentMgr_frame (E : Env Sig) (c : Client Sig) : Frame c (paymentMgr E c) := by
  unfold paymentMgr
  split <;> exact ⟨rfl, rfl, rfl⟩

/-- A payment is one voucher for the amount, or nothing and no success. -/
def Paid (c c' : Client Sig) (recipient : Addr) (amount : Int) (out : List (Out Sig)) (res : Res (Addr × Voucher Sig)) : Prop :=
  Frame c c' ∧ ((∃ ch v, res = .ok (ch, v) ∧ out = [.paid recipient amount v] ∧ c'.payment ≠ none) ∨ (out = [] ∧ ∀ x, res ≠ .ok x))

theorem topupAndPay_paid (E : Env Sig) (c : Client Sig) (n : Nat) (recipient : Addr) (amount : Int) :
    Paid c (topupAndPay E c n recipient amount).1 recipient amount (topupAndPay E c n recipient amount).2.1 (topupAndPay E c n recipient amount).2.2 := by
  unfold topupAndPay
  split
  · exact ⟨Frame.refl c, Or.inr ⟨rfl, fun x => by simp⟩⟩
  · split
    · exact ⟨⟨rfl, rfl, rfl⟩, Or.inl ⟨_, _, rfl, rfl, by simp⟩⟩
    · exact ⟨⟨rfl, rfl, rfl⟩, Or.inr ⟨rfl, fun x => by simp⟩⟩

theorem payFor_paid (E : Env Sig) (c : Client Sig) (n : Nat) (recipient : Addr) (amount : Int) :
    Paid c (payFor E c n recipient amount).1 recipient amount (payFor E c n recipient amount).2.1 (payFor E c n recipient amount).2.2 := by
  unfold payFor
  split
  · exact ⟨Frame.refl c, Or.inr ⟨rfl, fun x => by simp⟩⟩
  · split
    · exact ⟨⟨rfl, rfl, rfl⟩, Or.inr ⟨rfl, fun x => by simp⟩⟩
    · exact ⟨⟨rfl, rfl, rfl⟩, Or.inl ⟨_, _, rfl, rfl, by simp⟩⟩
    · rename_i p' _
      have := topupAndPay_paid E { c with payment := some p' } n recipient amount
      exact ⟨Frame.trans (a := c) (b := { c with payment := some p' }) ⟨rfl, rfl, rfl⟩ this.1, this.2⟩

theorem payFor_ok {E : Env Sig} {c c' : Client Sig} {n : Nat} {recipient : Addr} {amount : Int} {out : List (Out Sig)} {ch : Addr} {v : Voucher Sig}
    (h : payFor E c n recipient amount = (c', out, .ok (ch, v))) : Frame c c' ∧ out = [.paid recipient amount v] := by
  have := payFor_paid E c n recipient amount
  rw [h] at this
  refine ⟨this.1, ?_⟩
  rcases this.2 with ⟨ch', v', h1, h2, -⟩ | ⟨-, h2⟩
  · cases h1; exact h2
  · exact absurd rfl (h2 _)

theorem payFor_none {E : Env Sig} {c c' : Client Sig} {n : Nat} {recipient : Addr} {amount : Int} {out : List (Out Sig)} {res : Res (Addr × Voucher Sig)}
    (h : payFor E c n recipient amount = (c', out, res)) (hr : ∀ x, res ≠ .ok x) : Frame c c' ∧ out = [] := by
  have := payFor_paid E c n recipient amount
  rw [h] at this
  refine ⟨this.1, ?_⟩
  rcases this.2 with ⟨ch', v', h1, -, -⟩ | ⟨h1, -⟩
  · exact absurd h1 (hr _)
  · exact h1

theorem topupAndPay_ok {E : Env Sig} {c c' : Client Sig} {n : Nat} {recipient : Addr} {amount : Int} {out : List (Out Sig)} {ch : Addr} {v : Voucher Sig}
    (h : topupAndPay E c n recipient amount = (c', out, .ok (ch, v))) : Frame c c' ∧ out = [.paid recipient amount v] := by
  have := topupAndPay_paid E c n recipient amount
  rw [h] at this
  refine ⟨this.1, ?_⟩
  rcases this.2 with ⟨ch', v', h1, h2, -⟩ | ⟨-, h2⟩
  · cases h1; exact h2
  · exact absurd rfl (h2 _)

theorem topupAndPay_none {E : Env Sig} {c c' : Client Sig} {n : Nat} {recipient : Addr} {amount : Int} {out : List (Out Sig)} {res : Res (Addr × Voucher Sig)}
    (h : topupAndPay E c n recipient amount = (c', out, res)) (hr : ∀ x, res ≠ .ok x) : Frame c c' ∧ out = [] := by
  have := topupAndPay_paid E c n recipient amount
  rw [h] at this
  refine ⟨this.1, ?_⟩
  rcases this.2 with ⟨ch', v', h1, -, -⟩ | ⟨h1, -⟩
  · exact absurd h1 (hr _)
  · exact h1

theorem payments_append (a b : List (Out Sig)) : payments (a ++ b) = payments a ++ payments b := by
  induction a with
  | nil => rfl
  | cons o a ih => cases o <;> simp [payments, ih]

theorem asked_append (a b : List (Out Sig)) : asked (a ++ b) = asked a ++ asked b := by
  induction a with
  | nil => rfl
  | cons o a ih => cases o <;> simp [asked, ih]

/-- What a request shows. -/
theorem ask_seen (E : Env Sig) (n : Nat) (r : Record) {α : Type} (codec : Codec α) (a : α) :
    payments (ask E n r (encode codec E.pr a)).1 = [] ∧
    ∀ x ∈ asked (ask E n r (encode codec E.pr a)).1, x.1 = r.netClient ∧ encode codec E.pr a = .ok x.2 ∧ x.2.type = codec.code := by
  rcases ask_fst E n r (encode codec E.pr a) with h | ⟨m, hm, h⟩
  · rw [h]
    exact ⟨rfl, fun x hx => by cases hx⟩
  · rw [h]
    refine ⟨rfl, fun x hx => ?_⟩
    simp only [asked, List.mem_singleton] at hx
    rw [hx]
    exact ⟨rfl, hm, encode_type hm⟩

/-! ### the search of the second version of standard discovery -/

theorem searchStandardV2_seen {E : Env Sig} {c c' : Client Sig} {r : Record} {cid : Id} {channel : Addr} {voucher : Voucher Sig} {out : List (Out Sig)}
    {res : Res (List (List Char))} (h : searchStandardV2 E c r cid channel voucher = (c', out, res)) :
    Frame c c' ∧ (payments out = [] ∨ payments out = [(String.ofList r.address, c.settings.searchPrice)]) ∧
    (∀ x ∈ asked out, x.1 = r.netClient ∧ x.2.type = (clientStandardDiscoverRequestV2).code) := by
  have q (n : Nat) (nonce ttl : Int) (a b : List Char) : payments (requestStandardV2 E n r cid nonce ttl a b).1 = [] ∧
      ∀ x ∈ asked (requestStandardV2 E n r cid nonce ttl a b).1, x.1 = r.netClient ∧ x.2.type = (clientStandardDiscoverRequestV2).code := by
    have := ask_seen E n r clientStandardDiscoverRequestV2 (some cid, nonce, ttl, a, b)
    exact ⟨this.1, fun x hx => ⟨(this.2 x hx).1, (this.2 x hx).2.2⟩⟩
  unfold searchStandardV2 at h
  dsimp only at h
  split at h
  · cases h
    exact ⟨Frame.refl _, Or.inl (q _ _ _ _ _).1, fun x hx => (q _ _ _ _ _).2 x hx⟩
  · cases h
    exact ⟨Frame.refl _, Or.inl (q _ _ _ _ _).1, fun x hx => (q _ _ _ _ _).2 x hx⟩
  · cases h
    exact ⟨Frame.refl _, Or.inl (q _ _ _ _ _).1, fun x hx => (q _ _ _ _ _).2 x hx⟩
  · split at h
    · rename_i ht
      cases h
      obtain ⟨hf, rfl⟩ := topupAndPay_none ht (fun x => by simp)
      rw [List.append_nil]
      exact ⟨hf, Or.inl (q _ _ _ _ _).1, fun x hx => (q _ _ _ _ _).2 x hx⟩
    · rename_i ht
      cases h
      obtain ⟨hf, rfl⟩ := topupAndPay_none ht (fun x => by simp)
      rw [List.append_nil]
      exact ⟨hf, Or.inl (q _ _ _ _ _).1, fun x hx => (q _ _ _ _ _).2 x hx⟩
    · rename_i ht
      cases h
      obtain ⟨hf, rfl⟩ := topupAndPay_ok ht
      refine ⟨hf, Or.inr ?_, fun x hx => ?_⟩
      · rw [payments_append, payments_append]
        rw [(q _ _ _ _ _).1, (q _ _ _ _ _).1]
        rfl
      · rw [asked_append, asked_append, List.mem_append, List.mem_append] at hx
        rcases hx with (hx | hx) | hx
        · exact (q _ _ _ _ _).2 x hx
        · cases hx
        · exact (q _ _ _ _ _).2 x hx

theorem fetchStandardV2_seen {E : Env Sig} {c c' : Client Sig} {r : Record} {cid : Id} {ds : List (List Char)} {max : Int} {out : List (Out Sig)}
    {res : Res (List SubOffer)} (h : fetchStandardV2 E c r cid ds max = (c', out, res)) :
    Frame c c' ∧ (payments out = [] ∨ payments out = [(String.ofList r.address, ds.length * c.settings.offerPrice)]) ∧
    (∀ x ∈ asked out, x.1 = r.netClient ∧ payments out = [(String.ofList r.address, ds.length * c.settings.offerPrice)] ∧
      ∃ nonce ttl ch v, encode clientStandardDiscoverOfferRequest E.pr (some cid, nonce, ttl, ds, ch, v) = .ok x.2) ∧
    ∀ l, res = .ok l → (∀ o ∈ l, checkOffer E o = .ok ()) ∧ (1 ≤ max → (l.length : Int) ≤ max) := by
  unfold fetchStandardV2 at h
  split at h
  · rename_i ht
    cases h
    obtain ⟨hf, rfl⟩ := payFor_none ht (fun x => by simp)
    exact ⟨hf, Or.inl rfl, fun x hx => (by cases hx), fun l hl => by cases hl⟩
  · rename_i ht
    cases h
    obtain ⟨hf, rfl⟩ := payFor_none ht (fun x => by simp)
    exact ⟨hf, Or.inl rfl, fun x hx => (by cases hx), fun l hl => by cases hl⟩
  · rename_i ch v ht
    cases h
    obtain ⟨hf, rfl⟩ := payFor_ok ht
    have q (n : Nat) (nonce ttl : Int) (a b : List Char) : payments (requestStandardOffer E n r cid nonce ttl ds a b).1 = [] ∧
        ∀ x ∈ asked (requestStandardOffer E n r cid nonce ttl ds a b).1, x.1 = r.netClient ∧
          encode clientStandardDiscoverOfferRequest E.pr (some cid, nonce, ttl, ds, a, b) = .ok x.2 := by
      have := ask_seen E n r clientStandardDiscoverOfferRequest (some cid, nonce, ttl, ds, a, b)
      exact ⟨this.1, fun x hx => ⟨(this.2 x hx).1, (this.2 x hx).2.1⟩⟩
    refine ⟨hf, Or.inr ?_, fun x hx => ?_, fun l hl => ?_⟩
    · rw [payments_append, (q _ _ _ _ _).1]
      rfl
    · rw [asked_append, List.mem_append] at hx
      rcases hx with hx | hx
      · cases hx
      · refine ⟨((q _ _ _ _ _).2 x hx).1, ?_, _, _, _, _, ((q _ _ _ _ _).2 x hx).2⟩
        rw [payments_append, (q _ _ _ _ _).1]
        rfl
    · split at hl
      · cases hl
      · cases hl
        exact ⟨fun o ho => (by cases ho), fun h => by simp; omega⟩
      · obtain ⟨-, h2, h3⟩ := takeValid_ok hl
        exact ⟨h2, fun h => by have := h3 (by omega); omega⟩

theorem upTo_ok {α : Type} {n : Int} {l l' : List α} (h : upTo n l = .ok l') : 0 ≤ n ∧ l' = l.take n.toNat ∧ (l'.length : Int) ≤ n := by
  unfold upTo at h
  split at h
  · cases h
  · cases h
    refine ⟨by omega, rfl, ?_⟩
    rw [List.length_take]
    omega

/-! ### the second version of DHT discovery -/

theorem searchDhtV2_seen {E : Env Sig} {c c' : Client Sig} {r : Record} {cid : Id} {num : Int} {channel : Addr} {voucher : Voucher Sig} {out : List (Out Sig)}
    {res : Res (List (Id × Msg))} (h : searchDhtV2 E c r cid num channel voucher = (c', out, res)) :
    Frame c c' ∧ (payments out = [] ∨ ∃ m a contacted answers un nonce toTopup, Answered E 0 r m a ∧
      decode clientDHTDiscoverResponseV2 a = .ok (contacted, answers, un, nonce, true, toTopup) ∧
      payments out = [(String.ofList toTopup, c.settings.searchPrice)]) ∧
    (∀ x ∈ asked out, x.1 = r.netClient ∧ x.2.type = (clientDHTDiscoverRequestV2).code) := by
  have q (n : Nat) (nonce ttl : Int) (a b : List Char) : payments (requestDhtV2 E n r cid nonce ttl num a b).1 = [] ∧
      ∀ x ∈ asked (requestDhtV2 E n r cid nonce ttl num a b).1, x.1 = r.netClient ∧ x.2.type = (clientDHTDiscoverRequestV2).code := by
    have := ask_seen E n r clientDHTDiscoverRequestV2 (some cid, nonce, ttl, num, false, a, b)
    exact ⟨this.1, fun x hx => ⟨(this.2 x hx).1, (this.2 x hx).2.2⟩⟩
  unfold searchDhtV2 at h
  dsimp only at h
  split at h
  · cases h
    exact ⟨Frame.refl _, Or.inl (q _ _ _ _ _).1, fun x hx => (q _ _ _ _ _).2 x hx⟩
  · cases h
    exact ⟨Frame.refl _, Or.inl (q _ _ _ _ _).1, fun x hx => (q _ _ _ _ _).2 x hx⟩
  · cases h
    exact ⟨Frame.refl _, Or.inl (q _ _ _ _ _).1, fun x hx => (q _ _ _ _ _).2 x hx⟩
  · rename_i toTopup hreq
    split at h
    · rename_i ht
      cases h
      obtain ⟨hf, rfl⟩ := topupAndPay_none ht (fun x => by simp)
      rw [List.append_nil]
      exact ⟨hf, Or.inl (q _ _ _ _ _).1, fun x hx => (q _ _ _ _ _).2 x hx⟩
    · rename_i ht
      cases h
      obtain ⟨hf, rfl⟩ := topupAndPay_none ht (fun x => by simp)
      rw [List.append_nil]
      exact ⟨hf, Or.inl (q _ _ _ _ _).1, fun x hx => (q _ _ _ _ _).2 x hx⟩
    · rename_i ht
      cases h
      obtain ⟨hf, rfl⟩ := topupAndPay_ok ht
      refine ⟨hf, Or.inr ?_, fun x hx => ?_⟩
      · unfold requestDhtV2 at hreq
        dsimp only at hreq
        obtain ⟨a, ha, hreq⟩ := res_ok_of_bind hreq
        obtain ⟨⟨contacted, answers, un, nonce, required, tt⟩, hd, hreq⟩ := res_ok_of_bind hreq
        obtain ⟨m, -, -, hans⟩ := ask_ok ha
        refine ⟨m, a, contacted, answers, un, nonce, toTopup, hans, ?_, ?_⟩
        · dsimp only at hreq
          split at hreq
          · cases hreq
          · split at hreq
            · cases hreq
            · split at hreq
              · rename_i hq
                cases hreq
                rw [hd, hq]
              · cases hreq
        · rw [payments_append, payments_append, (q _ _ _ _ _).1, (q _ _ _ _ _).1]
          rfl
      · rw [asked_append, asked_append, List.mem_append, List.mem_append] at hx
        rcases hx with (hx | hx) | hx
        · exact (q _ _ _ _ _).2 x hx
        · cases hx
        · exact (q _ _ _ _ _).2 x hx

/-- The digests taken from one answer: a part from the beginning of those which a registered gateway listed. -/
def Listed (E : Env Sig) (contacted : List (Id × Msg)) (ds : List (List Char)) : Prop :=
  ∃ id m r cid nonce digests funded ch, (id, m) ∈ contacted ∧ E.gateway id = some r ∧ CompleteGateway r ∧ SignedBy E r m ∧
    decode gatewayDHTDiscoverResponseV2 m = .ok (cid, nonce, true, digests, funded, false, ch) ∧ ds <+: digests

theorem collect_ok {E : Env Sig} {limit : Int} : ∀ {l : List (Id × Msg)} {added : Nat} {dss : List (List (List Char))},
    collect E limit added l = .ok (some dss) → (∀ ds ∈ dss, Listed E l ds) ∧
      ((added : Int) ≤ limit → (added + (dss.map List.length).sum : Int) ≤ limit) ∧ dss.length ≤ l.length := by
  intro l
  induction l with
  | nil =>
    intro added dss h
    cases h
    exact ⟨fun ds hds => (by cases hds), fun h => by simpa using h, Nat.le_refl _⟩
  | cons e l ih =>
    obtain ⟨id, m⟩ := e
    intro added dss h
    have skip {added : Nat} {dss : List (List (List Char))} (h : collect E limit added l = .ok (some dss)) : (∀ ds ∈ dss, Listed E ((id, m) :: l) ds) ∧
        ((added : Int) ≤ limit → (added + (dss.map List.length).sum : Int) ≤ limit) ∧ dss.length ≤ ((id, m) :: l).length := by
      obtain ⟨h1, h2, h3⟩ := ih h
      refine ⟨fun ds hds => ?_, h2, by simp only [List.length_cons]; omega⟩
      obtain ⟨i, x, r, a1, a2, a3, a4, a5, hm, rest⟩ := h1 ds hds
      exact ⟨i, x, r, a1, a2, a3, a4, a5, List.mem_cons_of_mem _ hm, rest⟩
    unfold collect at h
    split at h
    · cases h
    · exact skip h
    · rename_i k hk
      obtain ⟨r, hr, hv, hk⟩ := checkedKey_ok hk
      split at h
      · rename_i hsig
        split at h
        · cases h
        · exact skip h
        · rename_i cid nonce found digests funded required ch hd
          split at h
          · cases h
          · rename_i hreq
            split at h
            · cases h
            · rename_i hfound
              obtain ⟨ds, hds, h⟩ := res_ok_of_bind h
              have hpre : ds <+: digests ∧ ((added : Int) ≤ limit → (added + ds.length : Int) ≤ limit) := by
                split at hds
                · obtain ⟨h0, h1, h2⟩ := upTo_ok hds
                  exact ⟨h1 ▸ List.take_prefix _ _, fun _ => by omega⟩
                · cases hds
                  exact ⟨List.prefix_refl _, fun _ => by omega⟩
              have hl : Listed E ((id, m) :: l) ds := by
                refine ⟨id, m, r, cid, nonce, digests, funded, ch, List.mem_cons_self .., hr, (validGateway_iff r).1 hv, ⟨k, hk, verify_snd.1 hsig⟩, ?_, hpre.1⟩
                rw [hd]
                cases found with
                | false => simp at hfound
                | true =>
                  cases required with
                  | true => simp at hreq
                  | false => rfl
              split at h
              · cases h
                refine ⟨fun x hx => ?_, fun h => ?_, by simp⟩
                · rw [List.mem_singleton] at hx
                  exact hx ▸ hl
                · have := hpre.2 h
                  simpa using this
              · rename_i hlt
                obtain ⟨o, ho, h⟩ := res_ok_of_bind h
                cases o with
                | none => cases h
                | some dss' =>
                  cases h
                  obtain ⟨h1, h2, h3⟩ := skip ho
                  refine ⟨fun x hx => ?_, fun h => ?_, ?_⟩
                  · rcases List.mem_cons.1 hx with rfl | hx
                    · exact hl
                    · exact h1 x hx
                  · have := h2 (by omega)
                    simp only [List.map_cons, List.sum_cons]
                    omega
                  · have := (ih ho).2.2
                    simp only [List.length_cons]
                    omega
      · exact skip h

theorem fetchDhtV2_seen {E : Env Sig} {c c' : Client Sig} {r : Record} {cid : Id} {ids : List Id} {dss : List (List (List Char))} {out : List (Out Sig)}
    {res : Res (List (List Char × List SubOffer))} (h : fetchDhtV2 E c r cid ids dss = (c', out, res)) :
    Frame c c' ∧ (payments out = [] ∨ payments out = [(String.ofList r.address, ((dss.map List.length).sum : Nat) * c.settings.offerPrice)]) ∧
    (∀ x ∈ asked out, x.1 = r.netClient ∧ payments out = [(String.ofList r.address, ((dss.map List.length).sum : Nat) * c.settings.offerPrice)] ∧
      ∃ nonce ch v, encode clientDHTDiscoverOfferRequest E.pr (some cid, nonce, dss, ids, ch, v) = .ok x.2) ∧
    ∀ l, res = .ok l → ∃ m a cid' nonce' ids' answers ch entries, Answered E 2 r m a ∧ decode clientDHTDiscoverOfferResponse a = .ok (cid', nonce', ids', answers, false, ch) ∧
      ids'.length = answers.length ∧ gatherOffers (ids'.zip answers) = .ok entries ∧ l = offersMap entries := by
  unfold fetchDhtV2 at h
  have hfr := paymentMgr_frame E c
  split at h
  · rename_i ht
    cases h
    obtain ⟨hf, rfl⟩ := payFor_none ht (fun x => by simp)
    exact ⟨hfr.trans hf, Or.inl rfl, fun x hx => (by cases hx), fun l hl => by cases hl⟩
  · rename_i ht
    cases h
    obtain ⟨hf, rfl⟩ := payFor_none ht (fun x => by simp)
    exact ⟨hfr.trans hf, Or.inl rfl, fun x hx => (by cases hx), fun l hl => by cases hl⟩
  · rename_i ch v ht
    cases h
    obtain ⟨hf, rfl⟩ := payFor_ok ht
    have q (n : Nat) (nonce : Int) (a b : List Char) : payments (requestDhtOffer E n r ids cid nonce dss a b).1 = [] ∧
        ∀ x ∈ asked (requestDhtOffer E n r ids cid nonce dss a b).1, x.1 = r.netClient ∧
          encode clientDHTDiscoverOfferRequest E.pr (some cid, nonce, dss, ids, a, b) = .ok x.2 := by
      have := ask_seen E n r clientDHTDiscoverOfferRequest (some cid, nonce, dss, ids, a, b)
      exact ⟨this.1, fun x hx => ⟨(this.2 x hx).1, (this.2 x hx).2.1⟩⟩
    refine ⟨hfr.trans hf, Or.inr ?_, fun x hx => ?_, fun l hl => ?_⟩
    · rw [payments_append, (q _ _ _ _).1]
      rfl
    · rw [asked_append, List.mem_append] at hx
      rcases hx with hx | hx
      · cases hx
      · refine ⟨((q _ _ _ _).2 x hx).1, ?_, _, _, _, ((q _ _ _ _).2 x hx).2⟩
        rw [payments_append, (q _ _ _ _).1]
        rfl
    · obtain ⟨entries, he, hl⟩ := res_ok_of_bind hl
      cases hl
      unfold requestDhtOffer at he
      dsimp only at he
      obtain ⟨a, ha, he⟩ := res_ok_of_bind he
      obtain ⟨⟨cid', nonce', ids', answers, required, ch'⟩, hd, he⟩ := res_ok_of_bind he
      obtain ⟨m, -, -, hans⟩ := ask_ok ha
      dsimp only at he
      split at he
      · cases he
      · rename_i hlen
        split at he
        · cases he
        · rename_i hreq
          refine ⟨m, a, cid', nonce', ids', answers, ch', entries, hans, ?_, Decidable.not_not.1 hlen, he, rfl⟩
          rw [hd]
          cases required
          · rfl
          · simp at hreq

/-- Every entry of the map has the same offers. -/
theorem offersMap_same (entries : List (Id × List SubOffer)) : ∀ e ∈ offersMap entries, e.2 = (entries.map (·.2)).getLastD [] := by
  unfold offersMap
  generalize (entries.map (·.2)).getLastD [] = v
  have : ∀ (es : List (Id × List SubOffer)) (m : List (List Char × List SubOffer)), (∀ e ∈ m, e.2 = v) →
      ∀ e ∈ es.foldl (fun m e => mset m (Ids.toStr e.1) v) m, e.2 = v := by
    intro es
    induction es with
    | nil => intro m hm; exact hm
    | cons x es ih =>
      intro m hm
      refine ih _ ?_
      intro e he
      induction m with
      | nil =>
        simp only [mset, List.mem_singleton] at he
        rw [he]
      | cons y m ihm =>
        obtain ⟨a, b⟩ := y
        simp only [mset] at he
        split at he
        · rcases List.mem_cons.1 he with rfl | he
          · rfl
          · exact hm e (List.mem_cons_of_mem _ he)
        · rcases List.mem_cons.1 he with rfl | he
          · exact hm _ (List.mem_cons_self ..)
          · exact ihm (fun e he => hm e (List.mem_cons_of_mem _ he)) he
  exact this entries [] (fun e he => by cases he)

/-- The keys of the map are the gateways of the entries. -/
theorem offersMap_get (entries : List (Id × List SubOffer)) (k : List Char) :
    mget (offersMap entries) k = if k ∈ entries.map (fun e => Ids.toStr e.1) then some ((entries.map (·.2)).getLastD []) else none := by
  unfold offersMap
  generalize (entries.map (·.2)).getLastD [] = v
  have : ∀ (es : List (Id × List SubOffer)) (m : List (List Char × List SubOffer)),
      mget (es.foldl (fun m e => mset m (Ids.toStr e.1) v) m) k = if k ∈ es.map (fun e => Ids.toStr e.1) then some v else mget m k := by
    intro es
    induction es with
    | nil => intro m; simp
    | cons x es ih =>
      intro m
      rw [List.foldl_cons, ih]
      by_cases h : k ∈ es.map (fun e => Ids.toStr e.1)
      · simp only [if_pos h, List.map_cons, List.mem_cons, h, or_true, if_true]
      · simp only [if_neg h, List.map_cons, List.mem_cons, h, or_false, mget_mset]
        by_cases hk : Ids.toStr x.1 = k
        · simp [hk]
        · have : ¬ k = Ids.toStr x.1 := fun e => hk e.symm
          simp [hk, this]
  rw [this entries []]
  simp [mget]

/-- The entries: the gateways which gave offers, with those offers. -/
theorem gatherOffers_ok : ∀ {l : List (Id × Msg)} {entries : List (Id × List SubOffer)}, gatherOffers l = .ok entries →
    ∀ e ∈ entries, ∃ m cid nonce funded ch, (e.1, m) ∈ l ∧ decode gatewayDHTDiscoverOfferResponse m = .ok (cid, nonce, true, e.2, funded, false, ch) ∧ e.2 ≠ [] := by
  intro l
  induction l with
  | nil =>
    intro entries h
    cases h
    intro e he
    cases he
  | cons x l ih =>
    obtain ⟨id, m⟩ := x
    intro entries h
    have skip {entries : List (Id × List SubOffer)} (h : gatherOffers l = .ok entries) : ∀ e ∈ entries, ∃ m' cid nonce funded ch, (e.1, m') ∈ (id, m) :: l ∧
        decode gatewayDHTDiscoverOfferResponse m' = .ok (cid, nonce, true, e.2, funded, false, ch) ∧ e.2 ≠ [] := by
      intro e he
      obtain ⟨m', a, b, c, d, hm, rest⟩ := ih h e he
      exact ⟨m', a, b, c, d, List.mem_cons_of_mem _ hm, rest⟩
    unfold gatherOffers at h
    split at h
    · cases h
    · exact skip h
    · rename_i cid nonce found offers funded required ch hd
      split at h
      · cases h
      · rename_i hreq
        obtain ⟨l', hl', h⟩ := res_ok_of_bind h
        cases h
        intro e he
        split at he
        · rename_i hf
          rcases List.mem_cons.1 he with rfl | he
          · simp only [Bool.and_eq_true, decide_eq_true_eq] at hf
            refine ⟨m, cid, nonce, funded, ch, List.mem_cons_self .., ?_, ?_⟩
            · rw [hd, hf.1]
              cases required
              · rfl
              · simp at hreq
            · intro h0
              dsimp only at h0
              rw [h0] at hf
              simp at hf
          · exact skip hl' e he
        · exact skip hl' e he

/-! ### DHT discovery -/

theorem dhtAnswers_ok {E : Env Sig} : ∀ {l : List (Id × Msg)} {found res : List (List Char × List SubOffer)}, dhtAnswers E found l = .ok res →
    ∀ k offers, mget res k = some offers → mget found k = some offers ∨
      ∃ id m r cid nonce fnd all funded, k = Ids.toStr id ∧ (id, m) ∈ l ∧ E.gateway id = some r ∧ CompleteGateway r ∧ SignedBy E r m ∧
        decode gatewayDHTDiscoverResponse m = .ok (cid, nonce, fnd, all, funded) ∧ offers.Sublist all ∧ ∀ o ∈ all, o ∈ offers ↔ checkOffer E o = .ok () := by
  intro l
  induction l with
  | nil =>
    intro found res h
    cases h
    intro k offers hk
    exact Or.inl hk
  | cons x l ih =>
    obtain ⟨id, m⟩ := x
    intro found res h k offers hk
    have skip {found : List (List Char × List SubOffer)} (h : dhtAnswers E found l = .ok res) : mget found k = some offers ∨
      ∃ id' m' r cid nonce fnd all funded, k = Ids.toStr id' ∧ (id', m') ∈ (id, m) :: l ∧ E.gateway id' = some r ∧ CompleteGateway r ∧ SignedBy E r m' ∧
        decode gatewayDHTDiscoverResponse m' = .ok (cid, nonce, fnd, all, funded) ∧ offers.Sublist all ∧ ∀ o ∈ all, o ∈ offers ↔ checkOffer E o = .ok () := by
      rcases ih h k offers hk with h1 | ⟨a1, a2, a3, a4, a5, a6, a7, a8, h1, h2, rest⟩
      · exact Or.inl h1
      · exact Or.inr ⟨a1, a2, a3, a4, a5, a6, a7, a8, h1, List.mem_cons_of_mem _ h2, rest⟩
    unfold dhtAnswers at h
    split at h
    · cases h
    · exact skip h
    · rename_i kp hkey
      obtain ⟨r, hr, hv, hkey⟩ := checkedKey_ok hkey
      split at h
      · rename_i hsig
        split at h
        · cases h
        · exact skip h
        · rename_i cid nonce fnd all funded hd
          obtain ⟨ok, hok, h⟩ := res_ok_of_bind h
          rcases skip h with h1 | h1
          · rw [mget_mset] at h1
            split at h1
            · rename_i he
              cases h1
              obtain ⟨g1, g2⟩ := checkOffers_ok hok
              exact Or.inr ⟨id, m, r, cid, nonce, fnd, all, funded, he.symm, List.mem_cons_self .., hr, (validGateway_iff r).1 hv, ⟨kp, hkey, verify_snd.1 hsig⟩, hd, g1, g2⟩
            · exact Or.inl h1
          · exact Or.inr h1
      · exact skip h

end FcRetrieval.Client
