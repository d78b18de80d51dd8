import Verif.Spec.Provider
import Verif.Lemmas.GatewayPublish
import Verif.Lemmas.OfferMgr
/-!
# Lemmas on the handlers of the provider
-/
set_option linter.unusedSimpArgs false

namespace FcRetrieval.Provider
open FcRetrieval.Ids (Id Proper)
open FcRetrieval.Message (Msg)
open FcRetrieval.Merkle (Hash)
open FcRetrieval.Offer (CidOffer Built)
open FcRetrieval.Crypto (KeyPair KeyVersion)
open FcRetrieval.Register (Record)
open FcRetrieval.Wire
open FcRetrieval.Codecs
open FcRetrieval.OfferMgr (Mgr Storage DigestMap Clock)
open FcRetrieval.Gateway (res_ok_of_bind ofOption_ok decode_inv decFields_cons decI64_range decU64_range fromHex_len verify_snd sign_true
  mapFromString_proper decAll_mem i64_range)

/-! ## writing -/

theorem signMsg_ok {E : Env} {c : Core} {m m' : Msg} (h : signMsg E c m = .ok m') : ∃ sig, m' = { m with signature := sig } := by
  unfold signMsg at h
  split at h
  · cases h
  · split at h
    · rename_i hs
      cases h
      obtain ⟨sig, -, rfl⟩ := sign_true hs
      exact ⟨sig, rfl⟩
    · cases h

theorem signMsg_can {E : Env} {c : Core} (hk : CanSign E c) (m : Msg) : ∃ sig, signMsg E c m = .ok { m with signature := sig } := by
  obtain ⟨id, k, v, -, -, hkey, hs⟩ := hk
  obtain ⟨sig, hsig⟩ := Option.isSome_iff_exists.1 (hs (Message.toSign m))
  refine ⟨sig, ?_⟩
  unfold signMsg
  rw [hkey]
  simp only [Message.sign, hsig]

theorem respond_mem {α : Type} {E : Env} {c : Core} {codec : Codec α} {b1 b2 : List Out} {a : α} {m' : Msg}
    (h1 : ∀ m, .message m ∉ b1) (h2 : ∀ m, .message m ∉ b2) (h : Out.message m' ∈ respond E c codec b1 b2 a) :
    respond E c codec b1 b2 a = [.message m'] ∧ ∃ m sig, encode codec E.pr a = .ok m ∧ m' = { m with signature := sig } := by
  unfold respond at h ⊢
  split at h
  · simp at h
  · exact absurd h (h1 _)
  · rename_i m hm
    split at h
    · simp at h
    · exact absurd h (h2 _)
    · rename_i m1 hs
      simp at h
      subst h
      obtain ⟨sig, rfl⟩ := signMsg_ok hs
      rw [hm]
      exact ⟨rfl, m, sig, rfl, rfl⟩

theorem respond_decode {α : Type} {E : Env} {c : Core} {codec : Codec α} {b1 b2 : List Out} {a : α} {m' : Msg}
    (h1 : ∀ m, .message m ∉ b1) (h2 : ∀ m, .message m ∉ b2) (hd : Delivers codec E.pr a)
    (h : Out.message m' ∈ respond E c codec b1 b2 a) : m'.type = codec.code ∧ decode codec m' = .ok a := by
  obtain ⟨-, m, sig, he, rfl⟩ := respond_mem h1 h2 h
  obtain ⟨m2, he2, ht, -, -, hsig⟩ := hd
  rw [he] at he2
  cases he2
  exact ⟨ht, (hsig sig).2⟩

theorem respond_writes {α : Type} {E : Env} {c : Core} {codec : Codec α} {b1 b2 : List Out} {a : α} (hk : CanSign E c)
    (hd : Delivers codec E.pr a) : ∃ m', respond E c codec b1 b2 a = [.message m'] ∧ m'.type = codec.code ∧ decode codec m' = .ok a := by
  obtain ⟨m, he, ht, -, -, hsig⟩ := hd
  unfold respond
  rw [he]
  obtain ⟨sig, hs⟩ := signMsg_can hk m
  dsimp only
  rw [hs]
  exact ⟨_, rfl, ht, (hsig sig).2⟩

/-! ## checks -/

theorem gatewayKey_ok {E : Env} {gid : Id} {k : KeyPair} : gatewayKey E gid = .ok k ↔ Registered E gid k := by
  unfold gatewayKey Registered
  cases h : E.gateway gid with
  | none => simp
  | some r => simp

theorem senderKey_ok {E : Env} {gw : Option Id} {m : Msg} {k : KeyPair} : senderKey E gw m = .ok k ↔ Authentic E gw m k := by
  unfold senderKey Authentic
  cases gw with
  | none => simp
  | some gid =>
    dsimp only
    constructor
    · intro h
      obtain ⟨k', hk, h⟩ := res_ok_of_bind h
      split at h
      · rename_i hv
        cases h
        exact ⟨gid, rfl, gatewayKey_ok.1 hk, verify_snd.1 hv⟩
      · cases h
    · rintro ⟨_, hi, hk, hv⟩
      cases hi
      rw [gatewayKey_ok.2 hk]
      simp [verify_snd.2 hv]

theorem checkAck_ok {E : Env} {gid : Id} {req resp : Msg} : checkAck E gid req resp = .ok () ↔
    SignedBy E gid resp ∧ Acknowledges E gid req resp := by
  unfold checkAck SignedBy Acknowledges
  constructor
  · intro h
    obtain ⟨k, hk, h⟩ := res_ok_of_bind h
    split at h
    · rename_i hv
      obtain ⟨⟨nonce, sig⟩, hd, h⟩ := res_ok_of_bind h
      dsimp only at h
      split at h
      · rename_i hs
        exact ⟨⟨k, gatewayKey_ok.1 hk, verify_snd.1 hv⟩, k, nonce, sig, gatewayKey_ok.1 hk, hd, hs⟩
      · cases h
    · cases h
  · rintro ⟨⟨k, hk, hv⟩, k', nonce, sig, hk', hd, hs⟩
    have := gatewayKey_ok.2 hk
    rw [gatewayKey_ok.2 hk'] at this
    cases this
    rw [gatewayKey_ok.2 hk]
    simp [verify_snd.2 hv, hd, hs]

/-! ## making offers -/

theorem made_sign {E : Env} {c : Core} {k : KeyPair} {v : KeyVersion} (hk : c.key = some (k, v)) {cids : List Id} {price : Nat} {expiry : Int}
    {qos : Nat} {o o' : CidOffer} (h1 : Offer.newOffer E.H c.id cids price expiry qos = some o) (h2 : Offer.sign E.P k v o = .ok o') :
    Made E c cids price expiry qos o' := by
  unfold Offer.newOffer at h1
  split at h1
  · cases h1
  split at h1
  · cases h1
  rename_i root hroot
  cases h1
  unfold Offer.sign at h2
  obtain ⟨raw, hraw, h2⟩ := res_ok_of_bind h2
  obtain ⟨sig, hsig, h2⟩ := res_ok_of_bind h2
  cases h2
  cases hid : c.id with
  | none => simp [hid, Offer.toSign] at hraw
  | some p =>
    simp [hid, Offer.toSign] at hraw
    subst hraw
    exact ⟨k, v, hk, hid ▸ rfl, rfl, rfl, rfl, rfl, hroot, p, hid, ofOption_ok hsig⟩

theorem made_built {E : Env} {c : Core} (hid : ∀ p, c.id = some p → Proper p) {cids : List Id} (hc : IdsOk cids) {price : Nat} (hp : price < 2 ^ 64)
    {expiry : Int} (he : inI64 expiry) {qos : Nat} (hq : qos < 2 ^ 64) {o : CidOffer} (h : Made E c cids price expiry qos o) : Built E.H o := by
  obtain ⟨k, v, -, h1, h2, h3, h4, h5, h6, p, h7, -⟩ := h
  refine ⟨⟨⟨p, h1.trans h7, hid p h7⟩, ?_, h3 ▸ hp, h5 ▸ hq, ?_, ?_⟩, ?_, ?_⟩
  · rw [h2]; exact hc
  · rw [h4]; have := he.1; omega
  · rw [h4]; have := he.2; omega
  · intro h0
    rw [h2] at h0
    subst h0
    simp [Merkle.rootHex, Merkle.rootBytes] at h6
  · rw [h2]; exact h6

theorem makeOffers_made {E : Env} {c : Core} {k : KeyPair} {v : KeyVersion} (hk : c.key = some (k, v)) :
    ∀ {cids : List Id} {price : List Nat} {expiry : List Int} {qos : List Nat} {os : List CidOffer},
      cids.length = price.length → cids.length = expiry.length → cids.length = qos.length →
      makeOffers E c.id k v (cids.zip (price.zip (expiry.zip qos))) = .ok os → MadeAll E c cids price expiry qos os
  | [], [], [], [], os, _, _, _, h => by cases h; trivial
  | cid :: cids, p :: price, e :: expiry, q :: qos, os, l1, l2, l3, h => by
    simp only [List.zip_cons_cons] at h
    unfold makeOffers at h
    obtain ⟨o, h1, h⟩ := res_ok_of_bind h
    obtain ⟨o', h2, h⟩ := res_ok_of_bind h
    obtain ⟨os', h3, h⟩ := res_ok_of_bind h
    cases h
    exact ⟨made_sign hk (ofOption_ok h1) h2, makeOffers_made hk (by simpa using l1) (by simpa using l2) (by simpa using l3) h3⟩

theorem madeAll_mem {E : Env} {c : Core} : ∀ {cids : List Id} {price : List Nat} {expiry : List Int} {qos : List Nat} {os : List CidOffer},
    MadeAll E c cids price expiry qos os → ∀ o ∈ os, ∃ cid ∈ cids, ∃ p ∈ price, ∃ e ∈ expiry, ∃ q ∈ qos, Made E c [cid] p e q o
  | [], [], [], [], [], _, o, ho => by cases ho
  | cid :: cids, p :: price, e :: expiry, q :: qos, o' :: os, h, o, ho => by
    rcases List.mem_cons.1 ho with rfl | ho
    · exact ⟨cid, by simp, p, by simp, e, by simp, q, by simp, h.1⟩
    · obtain ⟨x, hx, p, hp, e, he, q, hq, hm⟩ := madeAll_mem h.2 o ho
      exact ⟨x, by simp [hx], p, by simp [hp], e, by simp [he], q, by simp [hq], hm⟩

theorem madeAll_cids {E : Env} {c : Core} : ∀ {cids : List Id} {price : List Nat} {expiry : List Int} {qos : List Nat} {os : List CidOffer},
    MadeAll E c cids price expiry qos os → os.map (·.cids) = cids.map (fun x => [x])
  | [], [], [], [], [], _ => rfl
  | cid :: cids, p :: price, e :: expiry, q :: qos, o' :: os, h => by
    have h1 := h.1
    obtain ⟨k, v, -, -, h2, -⟩ := h1
    simp [h2, madeAll_cids h.2]

theorem ids_ok {w : List (List Char)} {l : List Id} (h : ids w = .ok l) : Ids.mapFromString w = some l := by
  unfold ids at h
  split at h
  · cases h
  · rename_i hx; cases h; exact hx

theorem slice_mem {f : FieldT} {j : Option Json} {as : List f.T} (h : (slice f).dec j = .ok as) : ∀ a ∈ as, ∃ j', f.dec (some j') = .ok a := by
  unfold slice at h
  dsimp only at h
  split at h
  · cases h; intro a ha; cases ha
  · cases h; intro a ha; cases ha
  · exact decAll_mem h
  · cases h

theorem publishDht_terms {m : Msg} {cids : List Id} {price : List Nat} {expiry : List Int} {qos : List Nat}
    (h : decode providerAdminPublishDHTOfferRequest m = .ok (cids, price, expiry, qos)) :
    IdsOk cids ∧ (∀ x ∈ price, x < 2 ^ 64) ∧ (∀ x ∈ expiry, inI64 x) ∧ ∀ x ∈ qos, x < 2 ^ 64 := by
  obtain ⟨-, fs, ⟨w1, w2, w3, w4, ⟨⟩⟩, h1, h2⟩ := decode_inv h
  obtain ⟨ids, hi, h2⟩ := res_ok_of_bind h2
  cases h2
  have d2 := (decFields_cons (decFields_cons h1).2).1
  have d3 := (decFields_cons (decFields_cons (decFields_cons h1).2).2).1
  have d4 := (decFields_cons (decFields_cons (decFields_cons (decFields_cons h1).2).2).2).1
  refine ⟨mapFromString_proper (ids_ok hi), ?_, ?_, ?_⟩
  · intro x hx
    obtain ⟨j, hj⟩ := slice_mem d2 x hx
    exact decU64_range (ofOption_ok hj)
  · intro x hx
    obtain ⟨j, hj⟩ := slice_mem d3 x hx
    exact decI64_range (ofOption_ok hj)
  · intro x hx
    obtain ⟨j, hj⟩ := slice_mem d4 x hx
    exact decU64_range (ofOption_ok hj)

theorem publishGroup_terms {m : Msg} {cids : List Id} {price : Nat} {expiry : Int} {qos : Nat}
    (h : decode providerAdminPublishGroupOfferRequest m = .ok (cids, price, expiry, qos)) :
    IdsOk cids ∧ price < 2 ^ 64 ∧ inI64 expiry ∧ qos < 2 ^ 64 := by
  obtain ⟨-, fs, ⟨w1, w2, w3, w4, ⟨⟩⟩, h1, h2⟩ := decode_inv h
  obtain ⟨ids, hi, h2⟩ := res_ok_of_bind h2
  cases h2
  have d2 := (decFields_cons (decFields_cons h1).2).1
  have d3 := (decFields_cons (decFields_cons (decFields_cons h1).2).2).1
  have d4 := (decFields_cons (decFields_cons (decFields_cons (decFields_cons h1).2).2).2).1
  exact ⟨mapFromString_proper (ids_ok hi), decU64_range (ofOption_ok d2), decI64_range (ofOption_ok d3), decU64_range (ofOption_ok d4)⟩

end FcRetrieval.Provider
