import Verif.Spec.Gateway
import Verif.Props.Codecs
import Verif.Props.Ids
/-!
# Lemmas about the handlers of the gateway
-/
set_option linter.unusedSimpArgs false

namespace FcRetrieval.Gateway
open FcRetrieval.Ids (Id)
open FcRetrieval.Merkle (Hash)
open FcRetrieval.Message (Msg Protocol)
open FcRetrieval.Wire
open FcRetrieval.Codecs
open FcRetrieval.Register (Record)

variable {Sig : Type}

/-! ### decoding -/

theorem res_ok_of_bind {α β : Type} {x : Res α} {f : α → Res β} {b : β} (h : (x >>= f) = .ok b) : ∃ a, x = .ok a ∧ f a = .ok b := by
  cases x with
  | ok a => exact ⟨a, rfl, h⟩
  | err => cases h
  | panic => cases h

theorem ofOption_ok {α : Type} {x : Option α} {a : α} (h : Res.ofOption x = .ok a) : x = some a := by
  cases x with
  | none => cases h
  | some b => cases h; rfl

/-- What was decoded came from the fields of the struct. -/
theorem decode_inv {α : Type} {c : Codec α} {m : Msg} {a : α} (h : decode c m = .ok a) :
    m.type = c.code ∧ ∃ fs v, decFields c.schema fs = .ok v ∧ c.ofWire v = .ok a := by
  unfold decode at h
  by_cases ht : m.type = c.code
  · rw [if_neg (by simp [ht])] at h
    obtain ⟨j, -, h⟩ := res_ok_of_bind h
    obtain ⟨fs, -, h⟩ := res_ok_of_bind h
    obtain ⟨v, h1, h2⟩ := res_ok_of_bind h
    exact ⟨ht, fs, v, h1, h2⟩
  · rw [if_pos ht] at h
    cases h

theorem decFields_cons {name : String} {f : FieldT} {s : Schema} {fs : List (String × Json)} {v : f.T} {vs : Vals s}
    (h : decFields ((name, f) :: s) fs = .ok (v, vs)) : f.dec (memberFor name fs) = .ok v ∧ decFields s fs = .ok vs := by
  simp only [decFields] at h
  obtain ⟨a, h1, h⟩ := res_ok_of_bind h
  obtain ⟨b, h2, h⟩ := res_ok_of_bind h
  cases h
  exact ⟨h1, h2⟩

theorem decI64_range {j : Option Json} {n : Int} (h : decI64 j = some n) : inI64 n := by
  unfold decI64 decNum at h
  split at h
  · cases h; exact ⟨by decide, by decide⟩
  · cases h; exact ⟨by decide, by decide⟩
  · split at h
    · cases h
      rename_i hr
      exact hr
    · cases h
  · cases h

theorem i64_range {j : Option Json} {n : Int} (h : i64.dec j = .ok n) : inI64 n :=
  decI64_range (ofOption_ok h)

theorem fromHex_len {s : List Char} {id : Id} (h : Ids.fromHex s = some id) : id.length = 32 :=
  Ids.C08_constructors_proper [] 0 s id (.inr (.inr h))

theorem standard_req {m : Msg} {cid : Option Id} {nonce ttl : Int} {ch v : List Char}
    (h : decode clientStandardDiscoverRequest m = .ok (cid, nonce, ttl, ch, v)) : (∀ id, cid = some id → id.length = 32) ∧ inI64 nonce := by
  obtain ⟨-, fs, ⟨w1, w2, w3, w4, w5, ⟨⟩⟩, h1, h2⟩ := decode_inv h
  cases h2
  exact ⟨fun id hid => fromHex_len hid, i64_range (decFields_cons (decFields_cons h1).2).1⟩

theorem standardV2_req {m : Msg} {cid : Option Id} {nonce ttl : Int} {ch v : List Char}
    (h : decode clientStandardDiscoverRequestV2 m = .ok (cid, nonce, ttl, ch, v)) : (∀ id, cid = some id → id.length = 32) ∧ inI64 nonce := by
  obtain ⟨-, fs, ⟨w1, w2, w3, w4, w5, ⟨⟩⟩, h1, h2⟩ := decode_inv h
  cases h2
  exact ⟨fun id hid => fromHex_len hid, i64_range (decFields_cons (decFields_cons h1).2).1⟩

theorem standardOffer_req {m : Msg} {cid : Option Id} {nonce ttl : Int} {ds : List (List Char)} {ch v : List Char}
    (h : decode clientStandardDiscoverOfferRequest m = .ok (cid, nonce, ttl, ds, ch, v)) :
    (∀ id, cid = some id → id.length = 32) ∧ inI64 nonce := by
  obtain ⟨-, fs, ⟨w1, w2, w3, w4, w5, w6, ⟨⟩⟩, h1, h2⟩ := decode_inv h
  cases h2
  exact ⟨fun id hid => fromHex_len hid, i64_range (decFields_cons (decFields_cons h1).2).1⟩

theorem peerDht_req {m : Msg} {gw cid : Option Id} {nonce ttl : Int} {ch v : List Char}
    (h : decode gatewayDHTDiscoverRequest m = .ok (gw, cid, nonce, ttl, ch, v)) : (∀ id, cid = some id → id.length = 32) ∧ inI64 nonce := by
  obtain ⟨-, fs, ⟨w1, w2, w3, w4, w5, w6, ⟨⟩⟩, h1, h2⟩ := decode_inv h
  cases h2
  exact ⟨fun id hid => fromHex_len hid, i64_range (decFields_cons (decFields_cons (decFields_cons h1).2).2).1⟩

theorem peerDhtV2_req {m : Msg} {gw cid : Option Id} {nonce ttl : Int} {ch v : List Char}
    (h : decode gatewayDHTDiscoverRequestV2 m = .ok (gw, cid, nonce, ttl, ch, v)) : (∀ id, cid = some id → id.length = 32) ∧ inI64 nonce := by
  obtain ⟨-, fs, ⟨w1, w2, w3, w4, w5, w6, ⟨⟩⟩, h1, h2⟩ := decode_inv h
  cases h2
  exact ⟨fun id hid => fromHex_len hid, i64_range (decFields_cons (decFields_cons (decFields_cons h1).2).2).1⟩

theorem peerDhtOffer_req {m : Msg} {cid : Option Id} {nonce : Int} {ds : List (List Char)} {ch v : List Char}
    (h : decode gatewayDHTDiscoverOfferRequest m = .ok (cid, nonce, ds, ch, v)) : (∀ id, cid = some id → id.length = 32) ∧ inI64 nonce := by
  obtain ⟨-, fs, ⟨w1, w2, w3, w4, w5, ⟨⟩⟩, h1, h2⟩ := decode_inv h
  cases h2
  exact ⟨fun id hid => fromHex_len hid, i64_range (decFields_cons (decFields_cons h1).2).1⟩

theorem dht_req {m : Msg} {cid : Option Id} {nonce ttl num : Int} {inc : Bool} {ch v : List Char}
    (h : decode clientDHTDiscoverRequest m = .ok (cid, nonce, ttl, num, inc, ch, v)) : (∀ id, cid = some id → id.length = 32) ∧ inI64 nonce := by
  obtain ⟨-, fs, ⟨w1, w2, w3, w4, w5, w6, w7, ⟨⟩⟩, h1, h2⟩ := decode_inv h
  cases h2
  exact ⟨fun id hid => fromHex_len hid, i64_range (decFields_cons (decFields_cons h1).2).1⟩

theorem dhtV2_req {m : Msg} {cid : Option Id} {nonce ttl num : Int} {inc : Bool} {ch v : List Char}
    (h : decode clientDHTDiscoverRequestV2 m = .ok (cid, nonce, ttl, num, inc, ch, v)) : (∀ id, cid = some id → id.length = 32) ∧ inI64 nonce := by
  obtain ⟨-, fs, ⟨w1, w2, w3, w4, w5, w6, w7, ⟨⟩⟩, h1, h2⟩ := decode_inv h
  cases h2
  exact ⟨fun id hid => fromHex_len hid, i64_range (decFields_cons (decFields_cons h1).2).1⟩

/-! ### writing -/

theorem sign_true {P : Crypto.Prims} {k : Crypto.KeyPair} {v : Crypto.KeyVersion} {m m' : Msg}
    (h : Message.sign P k v m = (m', true)) : ∃ sig, Crypto.signMessage P k v (Message.toSign m) = some sig ∧ m' = { m with signature := sig } := by
  unfold Message.sign at h
  split at h
  · cases h
  · rename_i sig hs
    cases h
    exact ⟨sig, hs, rfl⟩

/-- The only message that `respond` can write is the one encoded, with a signature. -/
theorem respond_mem {α : Type} {E : Env Sig} {c : Core Sig} {codec : Codec α} {b1 b2 : Out Sig} {a : α} {m' : Msg}
    (h1 : ∀ m, b1 ≠ .message m) (h2 : ∀ m, b2 ≠ .message m) (h : Out.message m' ∈ respond E c codec b1 b2 a) :
    ∃ m sig, encode codec E.pr a = .ok m ∧ m' = { m with signature := sig } := by
  unfold respond at h
  split at h
  · simp at h
  · simp at h
    exact absurd h.symm (h1 _)
  · rename_i m hm
    split at h
    · rename_i m1 hs
      simp at h
      subst h
      obtain ⟨sig, -, rfl⟩ := sign_true hs
      exact ⟨m, sig, hm, rfl⟩
    · simp at h
      exact absurd h.symm (h2 _)

/-- Whoever reads the message written gets the arguments. -/
theorem respond_decode {α : Type} {E : Env Sig} {c : Core Sig} {codec : Codec α} {b1 b2 : Out Sig} {a : α} {m' : Msg}
    (h1 : ∀ m, b1 ≠ .message m) (h2 : ∀ m, b2 ≠ .message m) (hd : Delivers codec E.pr a)
    (h : Out.message m' ∈ respond E c codec b1 b2 a) : m'.type = codec.code ∧ decode codec m' = .ok a := by
  obtain ⟨m, sig, he, rfl⟩ := respond_mem h1 h2 h
  obtain ⟨m2, he2, ht, -, -, hsig⟩ := hd
  rw [he] at he2
  cases he2
  exact ⟨ht, (hsig sig).2⟩

/-- With a working key the arguments are written. -/
theorem respond_writes {α : Type} {E : Env Sig} {c : Core Sig} {codec : Codec α} {b1 b2 : Out Sig} {a : α} (hk : CanSign E c)
    (hd : Delivers codec E.pr a) : ∃ m', respond E c codec b1 b2 a = [.message m'] ∧ m'.type = codec.code ∧ decode codec m' = .ok a := by
  obtain ⟨m, he, ht, -, -, hsig⟩ := hd
  unfold respond
  rw [he]
  obtain ⟨sig, hs⟩ := Option.isSome_iff_exists.1 (hk (Message.toSign m))
  simp only [Message.sign, hs]
  exact ⟨_, rfl, ht, (hsig sig).2⟩

/-- The kind of a message decides what it can disclose. -/
theorem discloses_kind {m : Msg} (h : Discloses m) :
    (m.type = 103 → ∃ a, decode clientStandardDiscoverResponse m = .ok a ∧ a.2.2.2.1 ≠ []) ∧
    (m.type = 109 → ∃ a, decode clientStandardDiscoverResponseV2 m = .ok a ∧ a.2.2.2.1 ≠ []) ∧
    (m.type = 111 → ∃ a, decode clientStandardDiscoverOfferResponse m = .ok a ∧ a.2.2.2.1 ≠ []) ∧
    (m.type = 105 → ∃ a, decode clientDHTDiscoverResponse m = .ok a ∧ a.2.1 ≠ []) ∧
    (m.type = 113 → ∃ a, decode clientDHTDiscoverResponseV2 m = .ok a ∧ a.2.1 ≠ []) ∧
    (m.type = 115 → ∃ a, decode clientDHTDiscoverOfferResponse m = .ok a ∧ a.2.2.2.1 ≠ []) ∧
    (m.type = 204 → ∃ a, decode gatewayDHTDiscoverResponse m = .ok a ∧ a.2.2.2.1 ≠ []) ∧
    (m.type = 208 → ∃ a, decode gatewayDHTDiscoverResponseV2 m = .ok a ∧ a.2.2.2.1 ≠ []) ∧
    (m.type = 210 → ∃ a, decode gatewayDHTDiscoverOfferResponse m = .ok a ∧ a.2.2.2.1 ≠ []) := by
  rcases h with h | h | h | h | h | h | h | h | h <;>
  (have ht := (decode_inv h.choose_spec.1).1
   refine ⟨?_, ?_, ?_, ?_, ?_, ?_, ?_, ?_, ?_⟩ <;> intro ht' <;>
   first
     | exact h
     | (rw [ht'] at ht; exact absurd ht (by decide)))

/-! ### senders and payments -/

theorem verify_snd {P : Crypto.Prims} {k : Crypto.KeyPair} {m : Msg} :
    (Message.verify P k m).2 = true ↔ Crypto.verifyMessage P k m.signature (Message.toSign m) = some true := by
  unfold Message.verify
  split
  · rename_i h; simp [h]
  · rename_i h
    constructor
    · intro h'; cases h'
    · intro h'; exact absurd h' (by simpa using h)

theorem senderKey_ok {E : Env Sig} {look : Id → Option Record} {id : Option Id} {m : Msg} {k : Crypto.KeyPair} :
    senderKey E look id m = .ok k ↔ Authentic E look id m k := by
  unfold senderKey Authentic signingKey
  cases id with
  | none => simp
  | some i =>
    dsimp only
    cases hl : look i with
    | none => simp [hl]
    | some r =>
      dsimp only
      constructor
      · intro h
        obtain ⟨k', hk, h⟩ := res_ok_of_bind h
        split at h
        · rename_i hv
          cases h
          exact ⟨i, r, rfl, hl, hk, verify_snd.1 hv⟩
        · cases h
      · rintro ⟨i', r', hi, hl', hk, hv⟩
        cases hi
        rw [hl] at hl'
        cases hl'
        rw [hk]
        simp [verify_snd.2 hv]

theorem recvCheck_frame {verify : Sig → Payment.Addr → Payment.VBody → Bool} {m : Payment.Mgr Sig} {ch : Payment.Addr} {v : Option (Payment.Voucher Sig)}
    {cv : Option Payment.ChainView} : (Payment.receive verify m ch v cv).1.outbound = m.outbound ∧ (Payment.receive verify m ch v cv).1.address = m.address := by
  unfold Payment.receive
  split
  · split
    · exact ⟨rfl, rfl⟩
    · unfold Payment.recvFound
      split <;> exact ⟨rfl, rfl⟩
  · exact ⟨rfl, rfl⟩

/-- Receiving changes nothing but the inbound channels. -/
theorem receive_frame {E : Env Sig} {c c' : Core Sig} {ch v : List Char} {r : Payment.RecvOut} (h : receive E c ch v = (c', r)) :
    ∃ inb, c' = { c with payment := { c.payment with inbound := inb } } := by
  unfold receive at h
  have h1 := (Prod.mk.inj h).1
  refine ⟨c'.payment.inbound, ?_⟩
  subst h1
  have := @recvCheck_frame Sig E.verifyVoucher c.payment (String.ofList ch) (E.readVoucher v) (E.chain (String.ofList ch))
  generalize (Payment.receive E.verifyVoucher c.payment (String.ofList ch) (E.readVoucher v) (E.chain (String.ofList ch))).1 = p at this
  obtain ⟨a, o, i⟩ := p
  obtain ⟨h1, h2⟩ := this
  simp only at h1 h2
  subst h1 h2
  rfl

theorem receive_snd {E : Env Sig} {c c' : Core Sig} {ch v : List Char} {r : Payment.RecvOut} (h : receive E c ch v = (c', r)) :
    (Payment.receive E.verifyVoucher c.payment (String.ofList ch) (E.readVoucher v) (E.chain (String.ofList ch))).2 = r :=
  (Prod.mk.inj h).2

theorem receive_credited {E : Env Sig} {c : Core Sig} {ch v : List Char} {amount : Int} (h : Credits E c ch v amount) :
    receive E c ch v = ((receive E c ch v).1, .credited amount) := by
  rw [Prod.ext_iff]
  exact ⟨rfl, h⟩

end FcRetrieval.Gateway
