import Verif.Spec.GatewayPromise
import Verif.Props.GatewayLife
import Verif.Lemmas.GatewayReplay
/-!
# What the documentation promises about gateways: C145 to C149
-/

set_option linter.unusedSimpArgs false

namespace FcRetrieval.GatewayLife
open FcRetrieval.Ids (Id)
open FcRetrieval.Crypto (KeyPair KeyVersion)
open FcRetrieval.Merkle (Hash)
open FcRetrieval.Message (Msg)
open FcRetrieval.Offer (CidOffer Built terms)
open FcRetrieval.Wire (Codec Schema Vals decode encode encFields decFields str i64 bool)
open FcRetrieval.Gateway (decode_inv res_ok_of_bind)
open FcRetrieval.SqlOffer (DB OfferRow)
open FcRetrieval.Codecs
open FcRetrieval.GatewayAdmin (Env Node)
open FcRetrieval.Gateway (Publishes)

variable {Sig : Type}

/-! ## what an answer says -/

theorem wire_bits {α : Type} {c : Codec α} {pr : Message.Protocol} {a b : α} {m : Msg} {sig : List Char} (he : encode c pr a = .ok m)
    (hd : decode c { m with signature := sig } = .ok b) :
    ∃ v fs w, c.toWire a = .ok v ∧ encFields c.schema v = .ok fs ∧ decFields c.schema fs = .ok w ∧ c.ofWire w = .ok b := by
  unfold encode at he
  obtain ⟨v, hv, he⟩ := res_ok_of_bind he
  obtain ⟨fs, hfs, he⟩ := res_ok_of_bind he
  cases he
  refine ⟨v, fs, ?_⟩
  have hp : Message.parseText (Message.jsonText (.obj fs)) = some (.obj fs) := json_text_round_trip _
  unfold decode at hd
  rw [if_neg (by simp [Message.create])] at hd
  simp only [Message.create, Option.getD_some, hp, Res.ofOption, Res.bind_ok, decObj] at hd
  obtain ⟨w, hw, ho⟩ := res_ok_of_bind hd
  exact ⟨w, hv, hfs, hw, ho⟩

theorem encFields_names : ∀ {s : Schema} {v : Vals s} {fs : List (String × Json)}, encFields s v = .ok fs → fs.map Prod.fst = s.map Prod.fst
  | [], _, fs, h => by cases h; rfl
  | (name, f) :: s, (v, vs), fs, h => by
    simp only [encFields] at h
    obtain ⟨j, -, h⟩ := res_ok_of_bind h
    obtain ⟨js, hjs, h⟩ := res_ok_of_bind h
    cases h
    simp [encFields_names hjs]

/-- The first three fields of the six answers arrive as they were sent. -/
theorem three {rest : Schema} {s : List Char} {n : Int} {f : Bool} {v : Vals rest} {fs : List (String × Json)}
    {w : Vals (("piece_cid", str) :: ("nonce", i64) :: ("found", bool) :: rest)}
    (hn : Distinct ((("piece_cid", str) :: ("nonce", i64) :: ("found", bool) :: rest : Schema).map Prod.fst))
    (he : encFields (("piece_cid", str) :: ("nonce", i64) :: ("found", bool) :: rest) (s, n, f, v) = .ok fs)
    (hd : decFields (("piece_cid", str) :: ("nonce", i64) :: ("found", bool) :: rest) fs = .ok w) : w.1 = s ∧ w.2.2.1 = f := by
  have hnd : Distinct (fs.map Prod.fst) := by rw [encFields_names he]; exact hn
  obtain ⟨w1, w2, w3, w4⟩ := w
  obtain ⟨d1, d2⟩ := Gateway.decFields_cons hd
  obtain ⟨-, d3⟩ := Gateway.decFields_cons d2
  obtain ⟨d3, -⟩ := Gateway.decFields_cons d3
  obtain ⟨j1, e1, he⟩ := res_ok_of_bind he
  obtain ⟨fs1, h1, he⟩ := res_ok_of_bind he
  cases e1
  cases he
  obtain ⟨j2, e2, h1⟩ := res_ok_of_bind h1
  obtain ⟨fs2, h2, h1⟩ := res_ok_of_bind h1
  cases e2
  cases h1
  obtain ⟨j3, e3, h2⟩ := res_ok_of_bind h2
  obtain ⟨fs3, h3, h2⟩ := res_ok_of_bind h2
  cases e3
  cases h2
  rw [memberFor_eq (j := .str s) (by simp) hnd] at d1
  rw [memberFor_eq (j := .bool f) (by simp) hnd] at d3
  cases d1
  cases d3
  exact ⟨rfl, rfl⟩

theorem denies_type {x : Msg} {cid : Id} (h : Denies x cid) :
    x.type = 103 ∨ x.type = 109 ∨ x.type = 111 ∨ x.type = 204 ∨ x.type = 208 ∨ x.type = 210 := by
  rcases h with ⟨_, _, _, h⟩ | ⟨_, _, _, _, _, h⟩ | ⟨_, _, _, _, _, h⟩ | ⟨_, _, _, h⟩ | ⟨_, _, _, _, _, h⟩ | ⟨_, _, _, _, _, h⟩
  · exact .inl (decode_inv h).1
  · exact .inr (.inl (decode_inv h).1)
  · exact .inr (.inr (.inl (decode_inv h).1))
  · exact .inr (.inr (.inr (.inl (decode_inv h).1)))
  · exact .inr (.inr (.inr (.inr (.inl (decode_inv h).1))))
  · exact .inr (.inr (.inr (.inr (.inr (decode_inv h).1))))

theorem respond_type {α : Type} {E : Gateway.Env Sig} {c : Gateway.Core Sig} {codec : Codec α} {b1 b2 : Gateway.Out Sig} {a : α} {x : Msg}
    (h1 : ∀ m, b1 ≠ .message m) (h2 : ∀ m, b2 ≠ .message m) (h : Gateway.Out.message x ∈ Gateway.respond E c codec b1 b2 a) : x.type = codec.code := by
  obtain ⟨m, sig, he, rfl⟩ := Gateway.respond_mem h1 h2 h
  exact (Admin.encode_type he :)

theorem denies_clientStandardDiscoverResponse {E : Gateway.Env Sig} {c : Gateway.Core Sig} {b1 b2 : Gateway.Out Sig} {oid : Option Id} {n : Int} {f : Bool} {os : List Offer.SubOffer}
    {fs : List Bool} {x : Msg} {cid : Id} (hid : ∀ id, oid = some id → id.length = 32) (h1 : ∀ m, b1 ≠ .message m) (h2 : ∀ m, b2 ≠ .message m)
    (h : Gateway.Out.message x ∈ Gateway.respond E c clientStandardDiscoverResponse b1 b2 (oid, n, f, os, fs)) (hd : Denies x cid) : oid = some cid ∧ f = false := by
  obtain ⟨m, sig, he, rfl⟩ := Gateway.respond_mem h1 h2 h
  have ht : m.type = 103 := (Admin.encode_type he :)
  cases oid with
  | none =>
    unfold encode at he
    obtain ⟨v, hv, -⟩ := res_ok_of_bind he
    obtain ⟨v, hv, -⟩ := res_ok_of_bind hv
    cases hv
  | some id =>
    have key : ∀ {b}, decode clientStandardDiscoverResponse { m with signature := sig } = .ok b → b.1 = some id ∧ b.2.2.1 = f := by
      intro b hb
      obtain ⟨v, fs, w, hv, hfs, hw, ho⟩ := wire_bits he hb
      cases hv
      obtain ⟨e1, e2⟩ := three (by decide) hfs hw
      cases ho
      exact ⟨by rw [← Ids.fromHex_toStr (hid id rfl)]; exact congrArg Ids.fromHex e1, e2⟩
    rcases hd with ⟨_, _, _, h⟩ | ⟨_, _, _, _, _, h⟩ | ⟨_, _, _, _, _, h⟩ | ⟨_, _, _, h⟩ | ⟨_, _, _, _, _, h⟩ | ⟨_, _, _, _, _, h⟩
    · obtain ⟨e1, e2⟩ := key h
      exact ⟨e1.symm, e2.symm⟩
    · exact absurd (ht.symm.trans (decode_inv h).1) (by decide)
    · exact absurd (ht.symm.trans (decode_inv h).1) (by decide)
    · exact absurd (ht.symm.trans (decode_inv h).1) (by decide)
    · exact absurd (ht.symm.trans (decode_inv h).1) (by decide)
    · exact absurd (ht.symm.trans (decode_inv h).1) (by decide)

theorem denies_clientStandardDiscoverResponseV2 {E : Gateway.Env Sig} {c : Gateway.Core Sig} {b1 b2 : Gateway.Out Sig} {oid : Option Id} {n : Int} {f : Bool} {os : List (List Char)}
    {fs : List Bool} {p : Bool} {ch : List Char} {x : Msg} {cid : Id} (hid : ∀ id, oid = some id → id.length = 32) (h1 : ∀ m, b1 ≠ .message m) (h2 : ∀ m, b2 ≠ .message m)
    (h : Gateway.Out.message x ∈ Gateway.respond E c clientStandardDiscoverResponseV2 b1 b2 (oid, n, f, os, fs, p, ch)) (hd : Denies x cid) : oid = some cid ∧ f = false := by
  obtain ⟨m, sig, he, rfl⟩ := Gateway.respond_mem h1 h2 h
  have ht : m.type = 109 := (Admin.encode_type he :)
  cases oid with
  | none =>
    unfold encode at he
    obtain ⟨v, hv, -⟩ := res_ok_of_bind he
    obtain ⟨v, hv, -⟩ := res_ok_of_bind hv
    cases hv
  | some id =>
    have key : ∀ {b}, decode clientStandardDiscoverResponseV2 { m with signature := sig } = .ok b → b.1 = some id ∧ b.2.2.1 = f := by
      intro b hb
      obtain ⟨v, fs, w, hv, hfs, hw, ho⟩ := wire_bits he hb
      cases hv
      obtain ⟨e1, e2⟩ := three (by decide) hfs hw
      cases ho
      exact ⟨by rw [← Ids.fromHex_toStr (hid id rfl)]; exact congrArg Ids.fromHex e1, e2⟩
    rcases hd with ⟨_, _, _, h⟩ | ⟨_, _, _, _, _, h⟩ | ⟨_, _, _, _, _, h⟩ | ⟨_, _, _, h⟩ | ⟨_, _, _, _, _, h⟩ | ⟨_, _, _, _, _, h⟩
    · exact absurd (ht.symm.trans (decode_inv h).1) (by decide)
    · obtain ⟨e1, e2⟩ := key h
      exact ⟨e1.symm, e2.symm⟩
    · exact absurd (ht.symm.trans (decode_inv h).1) (by decide)
    · exact absurd (ht.symm.trans (decode_inv h).1) (by decide)
    · exact absurd (ht.symm.trans (decode_inv h).1) (by decide)
    · exact absurd (ht.symm.trans (decode_inv h).1) (by decide)

theorem denies_gatewayDHTDiscoverResponse {E : Gateway.Env Sig} {c : Gateway.Core Sig} {b1 b2 : Gateway.Out Sig} {oid : Option Id} {n : Int} {f : Bool} {os : List Offer.SubOffer}
    {fs : List Bool} {x : Msg} {cid : Id} (hid : ∀ id, oid = some id → id.length = 32) (h1 : ∀ m, b1 ≠ .message m) (h2 : ∀ m, b2 ≠ .message m)
    (h : Gateway.Out.message x ∈ Gateway.respond E c gatewayDHTDiscoverResponse b1 b2 (oid, n, f, os, fs)) (hd : Denies x cid) : oid = some cid ∧ f = false := by
  obtain ⟨m, sig, he, rfl⟩ := Gateway.respond_mem h1 h2 h
  have ht : m.type = 204 := (Admin.encode_type he :)
  cases oid with
  | none =>
    unfold encode at he
    obtain ⟨v, hv, -⟩ := res_ok_of_bind he
    obtain ⟨v, hv, -⟩ := res_ok_of_bind hv
    cases hv
  | some id =>
    have key : ∀ {b}, decode gatewayDHTDiscoverResponse { m with signature := sig } = .ok b → b.1 = some id ∧ b.2.2.1 = f := by
      intro b hb
      obtain ⟨v, fs, w, hv, hfs, hw, ho⟩ := wire_bits he hb
      cases hv
      obtain ⟨e1, e2⟩ := three (by decide) hfs hw
      cases ho
      exact ⟨by rw [← Ids.fromHex_toStr (hid id rfl)]; exact congrArg Ids.fromHex e1, e2⟩
    rcases hd with ⟨_, _, _, h⟩ | ⟨_, _, _, _, _, h⟩ | ⟨_, _, _, _, _, h⟩ | ⟨_, _, _, h⟩ | ⟨_, _, _, _, _, h⟩ | ⟨_, _, _, _, _, h⟩
    · exact absurd (ht.symm.trans (decode_inv h).1) (by decide)
    · exact absurd (ht.symm.trans (decode_inv h).1) (by decide)
    · exact absurd (ht.symm.trans (decode_inv h).1) (by decide)
    · obtain ⟨e1, e2⟩ := key h
      exact ⟨e1.symm, e2.symm⟩
    · exact absurd (ht.symm.trans (decode_inv h).1) (by decide)
    · exact absurd (ht.symm.trans (decode_inv h).1) (by decide)

theorem denies_gatewayDHTDiscoverResponseV2 {E : Gateway.Env Sig} {c : Gateway.Core Sig} {b1 b2 : Gateway.Out Sig} {oid : Option Id} {n : Int} {f : Bool} {os : List (List Char)}
    {fs : List Bool} {p : Bool} {ch : List Char} {x : Msg} {cid : Id} (hid : ∀ id, oid = some id → id.length = 32) (h1 : ∀ m, b1 ≠ .message m) (h2 : ∀ m, b2 ≠ .message m)
    (h : Gateway.Out.message x ∈ Gateway.respond E c gatewayDHTDiscoverResponseV2 b1 b2 (oid, n, f, os, fs, p, ch)) (hd : Denies x cid) : oid = some cid ∧ f = false := by
  obtain ⟨m, sig, he, rfl⟩ := Gateway.respond_mem h1 h2 h
  have ht : m.type = 208 := (Admin.encode_type he :)
  cases oid with
  | none =>
    unfold encode at he
    obtain ⟨v, hv, -⟩ := res_ok_of_bind he
    obtain ⟨v, hv, -⟩ := res_ok_of_bind hv
    cases hv
  | some id =>
    have key : ∀ {b}, decode gatewayDHTDiscoverResponseV2 { m with signature := sig } = .ok b → b.1 = some id ∧ b.2.2.1 = f := by
      intro b hb
      obtain ⟨v, fs, w, hv, hfs, hw, ho⟩ := wire_bits he hb
      cases hv
      obtain ⟨e1, e2⟩ := three (by decide) hfs hw
      cases ho
      exact ⟨by rw [← Ids.fromHex_toStr (hid id rfl)]; exact congrArg Ids.fromHex e1, e2⟩
    rcases hd with ⟨_, _, _, h⟩ | ⟨_, _, _, _, _, h⟩ | ⟨_, _, _, _, _, h⟩ | ⟨_, _, _, h⟩ | ⟨_, _, _, _, _, h⟩ | ⟨_, _, _, _, _, h⟩
    · exact absurd (ht.symm.trans (decode_inv h).1) (by decide)
    · exact absurd (ht.symm.trans (decode_inv h).1) (by decide)
    · exact absurd (ht.symm.trans (decode_inv h).1) (by decide)
    · exact absurd (ht.symm.trans (decode_inv h).1) (by decide)
    · obtain ⟨e1, e2⟩ := key h
      exact ⟨e1.symm, e2.symm⟩
    · exact absurd (ht.symm.trans (decode_inv h).1) (by decide)

theorem denies_gatewayDHTDiscoverOfferResponse {E : Gateway.Env Sig} {c : Gateway.Core Sig} {b1 b2 : Gateway.Out Sig} {oid : Option Id} {n : Int} {f : Bool} {os : List Offer.SubOffer}
    {fs : List Bool} {p : Bool} {ch : List Char} {x : Msg} {cid : Id} (hid : ∀ id, oid = some id → id.length = 32) (h1 : ∀ m, b1 ≠ .message m) (h2 : ∀ m, b2 ≠ .message m)
    (h : Gateway.Out.message x ∈ Gateway.respond E c gatewayDHTDiscoverOfferResponse b1 b2 (oid, n, f, os, fs, p, ch)) (hd : Denies x cid) : oid = some cid ∧ f = false := by
  obtain ⟨m, sig, he, rfl⟩ := Gateway.respond_mem h1 h2 h
  have ht : m.type = 210 := (Admin.encode_type he :)
  cases oid with
  | none =>
    unfold encode at he
    obtain ⟨v, hv, -⟩ := res_ok_of_bind he
    obtain ⟨v, hv, -⟩ := res_ok_of_bind hv
    cases hv
  | some id =>
    have key : ∀ {b}, decode gatewayDHTDiscoverOfferResponse { m with signature := sig } = .ok b → b.1 = some id ∧ b.2.2.1 = f := by
      intro b hb
      obtain ⟨v, fs, w, hv, hfs, hw, ho⟩ := wire_bits he hb
      cases hv
      obtain ⟨e1, e2⟩ := three (by decide) hfs hw
      cases ho
      exact ⟨by rw [← Ids.fromHex_toStr (hid id rfl)]; exact congrArg Ids.fromHex e1, e2⟩
    rcases hd with ⟨_, _, _, h⟩ | ⟨_, _, _, _, _, h⟩ | ⟨_, _, _, _, _, h⟩ | ⟨_, _, _, h⟩ | ⟨_, _, _, _, _, h⟩ | ⟨_, _, _, _, _, h⟩
    · exact absurd (ht.symm.trans (decode_inv h).1) (by decide)
    · exact absurd (ht.symm.trans (decode_inv h).1) (by decide)
    · exact absurd (ht.symm.trans (decode_inv h).1) (by decide)
    · exact absurd (ht.symm.trans (decode_inv h).1) (by decide)
    · exact absurd (ht.symm.trans (decode_inv h).1) (by decide)
    · obtain ⟨e1, e2⟩ := key h
      exact ⟨e1.symm, e2.symm⟩

/-! ## C147 -/

/-- No message in it denies the cid. -/
def Undenied (cid : Id) (o : List (Gateway.Out Sig)) : Prop := ∀ x, Gateway.Out.message x ∈ o → ¬ Denies x cid

theorem Undenied.append {cid : Id} {a b : List (Gateway.Out Sig)} (h1 : Undenied cid a) (h2 : Undenied cid b) : Undenied cid (a ++ b) := by
  intro x hx
  rcases List.mem_append.1 hx with h | h
  · exact h1 x h
  · exact h2 x h

theorem Undenied.quiet {cid : Id} {a : List (Gateway.Out Sig)} (h : ∀ x, Gateway.Out.message x ∉ a) : Undenied cid a := fun x hx => absurd hx (h x)

theorem request_quiet (E : Gateway.Env Sig) (c : Gateway.Core Sig) (id : Id) (m : Res Msg) : ∀ x, Gateway.Out.message x ∉ (Gateway.request E c id m).1 := by
  intro x
  unfold Gateway.request
  split
  · split <;> simp
  · simp
  · simp

theorem dhtLoop_quiet (E : Gateway.Env Sig) (c : Gateway.Core Sig) (cid : Id) : ∀ (ids : List Id) (k : Gateway.Contacts) (x : Msg),
    Gateway.Out.message x ∉ (Gateway.dhtLoop E c cid ids k).1
  | [], k, x => by simp [Gateway.dhtLoop]
  | id :: ids, k, x => by
    unfold Gateway.dhtLoop
    have hq := request_quiet E c id (encode gatewayDHTDiscoverRequest E.pr (some c.id, some cid, 1, E.now + 10, [], []))
    split <;> rename_i hr <;> rw [hr] at hq
    · simpa using hq x
    · simpa using ⟨hq x, dhtLoop_quiet E c cid ids _ x⟩

theorem dhtV2Loop_quiet (E : Gateway.Env Sig) (cid : Id) : ∀ (c : Gateway.Core Sig) (rs : List Register.Record) (k : Gateway.Contacts) (x : Msg),
    Gateway.Out.message x ∉ (Gateway.dhtV2Loop E cid c rs k).2.1
  | c, [], k, x => by simp [Gateway.dhtV2Loop]
  | c, r :: rs, k, x => by
    unfold Gateway.dhtV2Loop
    split
    · simp
    · rename_i id _
      split
      · simp
      · rename_i c' ch v _
        have hq := request_quiet E c' id (encode gatewayDHTDiscoverRequestV2 E.pr (some c.id, some cid, 1, E.now + 10, ch.toList, E.showVoucher v))
        split <;> rename_i hr <;> rw [hr] at hq
        · simpa using hq x
        · simpa using ⟨hq x, dhtV2Loop_quiet E cid c' rs _ x⟩

theorem dhtOfferLoop_quiet (E : Gateway.Env Sig) (cid : Option Id) (nonce : Int) : ∀ (c : Gateway.Core Sig) (ids : List Id)
    (dss : List (List (List Char))) (k : Gateway.Contacts) (x : Msg), Gateway.Out.message x ∉ (Gateway.dhtOfferLoop E cid nonce c ids dss k).2.1
  | c, [], dss, k, x => by simp [Gateway.dhtOfferLoop]
  | c, id :: ids, [], k, x => by simp [Gateway.dhtOfferLoop]
  | c, id :: ids, ds :: dss, k, x => by
    unfold Gateway.dhtOfferLoop
    split
    · simp
    · split
      · simp
      · rename_i g _ _ c' pay _
        have hq := request_quiet E c' id (encode gatewayDHTDiscoverOfferRequest E.pr
          (cid, nonce, ds, (pay.map (fun p => p.1.toList)).getD [], (pay.map (fun p => E.showVoucher p.2)).getD []))
        have hp : Gateway.Out.message x ∉ (pay.map (fun p => Gateway.Out.paid (String.ofList g.address) p.2)).toList := by cases pay <;> simp
        dsimp only
        split <;> rename_i hr <;> rw [hr] at hq
        · simp only [List.mem_append, not_or]
          exact ⟨⟨hp, hq x⟩, by simp⟩
        · simp only [List.mem_append, not_or]
          exact ⟨⟨hp, hq x⟩, dhtOfferLoop_quiet E cid nonce c' ids dss _ x⟩

theorem dhtLoop_eq {E : Gateway.Env Sig} {c : Gateway.Core Sig} {cid : Id} {ids : List Id} {k : Gateway.Contacts} {out : List (Gateway.Out Sig)}
    {r : Option Gateway.Contacts} (h : Gateway.dhtLoop E c cid ids k = (out, r)) (x : Msg) : Gateway.Out.message x ∉ out := by
  have := dhtLoop_quiet E c cid ids k x
  rwa [h] at this

theorem dhtV2Loop_eq {E : Gateway.Env Sig} {c c' : Gateway.Core Sig} {cid : Id} {rs : List Register.Record} {k : Gateway.Contacts}
    {out : List (Gateway.Out Sig)} {r : Option Gateway.Contacts} (h : Gateway.dhtV2Loop E cid c rs k = (c', out, r)) (x : Msg) :
    Gateway.Out.message x ∉ out := by
  have := dhtV2Loop_quiet E cid c rs k x
  rwa [h] at this

theorem dhtOfferLoop_eq {E : Gateway.Env Sig} {c c' : Gateway.Core Sig} {cid : Option Id} {nonce : Int} {ids : List Id} {dss : List (List (List Char))}
    {k : Gateway.Contacts} {out : List (Gateway.Out Sig)} {r : Option Gateway.Contacts} (h : Gateway.dhtOfferLoop E cid nonce c ids dss k = (c', out, r))
    (x : Msg) : Gateway.Out.message x ∉ out := by
  have := dhtOfferLoop_quiet E cid nonce c ids dss k x
  rwa [h] at this

theorem respond_undenied {α : Type} {E : Gateway.Env Sig} {c : Gateway.Core Sig} {codec : Codec α} {b1 b2 : Gateway.Out Sig} {a : α} {cid : Id}
    (ht : codec.code ∉ [103, 109, 111, 204, 208, 210]) (h1 : ∀ m, b1 ≠ .message m) (h2 : ∀ m, b2 ≠ .message m) :
    Undenied cid (Gateway.respond E c codec b1 b2 a) := by
  intro x hx hd
  have := denies_type hd
  rw [respond_type h1 h2 hx] at this
  simp at ht
  omega

/-- A gateway that finds an offer for the cid does not deny it, in no answer but one. -/
theorem undenied (E : Gateway.Env Sig) (c : Gateway.Core Sig) (cid : Id) (hf : ∀ os f, Gateway.getOffers E c cid = .ok (os, f) → f = true) (k : Gateway.Kind)
    (hk : k ≠ .standardOffer) (m : Msg) : Undenied cid (Gateway.serve E c k m).2 := by
  have quiet : ∀ o : List (Gateway.Out Sig), (∀ x, Gateway.Out.message x ∉ o) → Undenied cid o := fun o h => .quiet h
  cases k with
  | establishment =>
    simp only [Gateway.serve]; unfold Gateway.establishment
    repeat' split
    all_goals (try dsimp only)
    all_goals first | (refine respond_undenied (by decide) ?_ ?_ <;> simp; done) | (refine quiet _ ?_; simp; done)
  | standard =>
    simp only [Gateway.serve]; unfold Gateway.standard
    split
    · exact quiet _ (by simp)
    · exact quiet _ (by simp)
    · rename_i oid nonce ttl ch v hreq
      split
      · exact quiet _ (by simp)
      · split
        · exact quiet _ (by simp)
        · split
          · rename_i hg
            intro x hx hd
            obtain ⟨e1, rfl⟩ := denies_clientStandardDiscoverResponse (Gateway.standard_req hreq).1 (by simp) (by simp) hx hd
            cases e1
            exact absurd (hf _ _ hg) (by simp)
          · exact quiet _ (by simp)
  | standardV2 =>
    simp only [Gateway.serve]; unfold Gateway.standardV2
    split
    · exact quiet _ (by simp)
    · exact quiet _ (by simp)
    · rename_i oid nonce ttl ch v hreq
      split
      · exact quiet _ (by simp)
      · split
        · exact quiet _ (by simp)
        · split
          · rename_i id _ os f hg
            have say : ∀ {ds fs p ch}, Undenied cid (Gateway.respond E c clientStandardDiscoverResponseV2 (.status 400) (.status 500)
                (some id, nonce, f, ds, fs, p, ch)) := by
              intro ds fs p ch x hx hd
              obtain ⟨e1, rfl⟩ := denies_clientStandardDiscoverResponseV2 (Gateway.standardV2_req hreq).1 (by simp) (by simp) hx hd
              cases e1
              exact absurd (hf _ _ hg) (by simp)
            dsimp only
            split
            · exact quiet _ (by simp)
            · dsimp only; exact say
            · split
              · split
                · dsimp only; exact say
                · exact quiet _ (by simp)
              · dsimp only; exact say
          · exact quiet _ (by simp)
  | standardOffer => exact absurd rfl hk
  | dht =>
    simp only [Gateway.serve]; unfold Gateway.dht
    split
    · exact quiet _ (by simp)
    · exact quiet _ (by simp)
    split
    · exact quiet _ (by simp)
    split
    · exact quiet _ (by simp)
    split
    · exact quiet _ (by simp)
    split
    · exact quiet _ (by simp)
    split <;> rename_i hl
    · exact quiet _ (dhtLoop_eq hl)
    · exact Undenied.append (quiet _ (dhtLoop_eq hl))
        (respond_undenied (by decide) (by simp) (by simp))
  | dhtV2 =>
    simp only [Gateway.serve]; unfold Gateway.dhtV2
    split
    · exact quiet _ (by simp)
    · exact quiet _ (by simp)
    split
    · exact quiet _ (by simp)
    split
    · exact quiet _ (by simp)
    split
    · exact quiet _ (by simp)
    split
    · exact quiet _ (by simp)
    · exact quiet _ (by simp)
    · dsimp only
      split <;> rename_i hl
      · exact Undenied.append (quiet _ (by intro x; split <;> simp)) (quiet _ (dhtV2Loop_eq hl))
      · exact Undenied.append (Undenied.append (quiet _ (by intro x; split <;> simp)) (quiet _ (dhtV2Loop_eq hl))) (respond_undenied (by decide) (by simp) (by simp))
  | dhtOffer =>
    simp only [Gateway.serve]; unfold Gateway.dhtOffer
    split
    · exact quiet _ (by simp)
    · exact quiet _ (by simp)
    split
    · exact quiet _ (by simp)
    · exact quiet _ (by simp)
    · dsimp only
      split <;> rename_i hl
      · exact Undenied.append (quiet _ (by intro x; split <;> simp)) (quiet _ (dhtOfferLoop_eq hl))
      · exact Undenied.append (Undenied.append (quiet _ (by intro x; split <;> simp)) (quiet _ (dhtOfferLoop_eq hl))) (respond_undenied (by decide) (by simp) (by simp))
  | peerDht =>
    simp only [Gateway.serve]; unfold Gateway.peerDht
    split
    · exact quiet _ (by simp)
    · exact quiet _ (by simp)
    · rename_i gw oid nonce ttl ch v hreq
      split
      · exact quiet _ (by simp)
      · exact quiet _ (by simp)
      split
      · exact quiet _ (by simp)
      · split
        · exact quiet _ (by simp)
        · split
          · rename_i hg
            intro x hx hd
            obtain ⟨e1, rfl⟩ := denies_gatewayDHTDiscoverResponse (Gateway.peerDht_req hreq).1 (by simp) (by simp) hx hd
            cases e1
            exact absurd (hf _ _ hg) (by simp)
          · exact quiet _ (by simp)
  | peerDhtV2 =>
    simp only [Gateway.serve]; unfold Gateway.peerDhtV2
    split
    · exact quiet _ (by simp)
    · exact quiet _ (by simp)
    · rename_i gw oid nonce ttl ch v hreq
      split
      · exact quiet _ (by simp)
      · exact quiet _ (by simp)
      split
      · exact quiet _ (by simp)
      split
      · exact quiet _ (by simp)
      · exact quiet _ (by simp)
      · split
        · exact quiet _ (by simp)
        · split
          · rename_i id _ os f hg
            have say : ∀ {ds fs p ch}, Undenied cid (Gateway.respond E c gatewayDHTDiscoverResponseV2 .invalid .invalid
                (some id, nonce, f, ds, fs, p, ch)) := by
              intro ds fs p ch x hx hd
              obtain ⟨e1, rfl⟩ := denies_gatewayDHTDiscoverResponseV2 (Gateway.peerDhtV2_req hreq).1 (by simp) (by simp) hx hd
              cases e1
              exact absurd (hf _ _ hg) (by simp)
            split
            · split
              · exact say
              · exact say
            · exact quiet _ (by simp)
          · exact quiet _ (by simp)
  | peerDhtOffer =>
    simp only [Gateway.serve]; unfold Gateway.peerDhtOffer
    split
    · exact quiet _ (by simp)
    · exact quiet _ (by simp)
    · rename_i oid nonce ds ch v hreq
      split
      · exact quiet _ (by simp)
      · exact quiet _ (by simp)
      · dsimp only
        have say : ∀ {os fs p ch}, Undenied cid (Gateway.respond E c gatewayDHTDiscoverOfferResponse .invalid .invalid
            (oid, nonce, true, os, fs, p, ch)) := by
          intro os fs p ch x hx hd
          obtain ⟨-, e2⟩ := denies_gatewayDHTDiscoverOfferResponse (Gateway.peerDhtOffer_req hreq).1 (by simp) (by simp) hx hd
          cases e2
        split
        · split
          · exact say
          · exact say
        · exact quiet _ (by simp)
  | publishDht =>
    simp only [Gateway.serve]; unfold Gateway.publishDht
    repeat' split
    all_goals (try dsimp only)
    all_goals first | (refine respond_undenied (by decide) ?_ ?_ <;> simp; done) | (refine quiet _ ?_; simp; done)
  | publishGroup =>
    simp only [Gateway.serve]; unfold Gateway.publishGroup
    repeat' split
    all_goals (try dsimp only)
    all_goals first | (refine respond_undenied (by decide) ?_ ?_ <;> simp; done) | (refine quiet _ ?_; simp; done)

/-- A gateway that serves requests which are not the admin's, and writes an answer, has been set up. -/
theorem answer_served {E : Env Sig} {n : Node Sig} {k : Gateway.Kind} {m x : Msg} (h : Event.other (.message x) ∈ (step E n (.other k) m).2) :
    ∃ id key v, n.id = some id ∧ n.key = some (key, v) ∧ (pays k = true → n.payment.isSome = true) ∧
      let r := Gateway.serve E.toEnv ⟨id, key, v, n.searchPrice, n.offerPrice, n.topupAmount, n.db, n.payment.getD (Payment.newMgr "")⟩ k m
      Gateway.Out.message x ∈ r.2 ∧ (step E n (.other k) m).1.payment = n.payment.map (fun _ => r.1.payment) := by
  simp only [step, serveOther] at h ⊢
  split at h
  · rename_i id key v hid hkey
    split at h
    · simp at h
    · rename_i hp
      refine ⟨id, key, v, hid, hkey, fun hk => ?_, by simpa using h, ?_⟩
      · cases hq : n.payment <;> simp_all
      · rw [hid, hkey]
        rw [if_neg hp]
  · exfalso
    split at h
    · unfold GatewayAdmin.freshPeerDht at h
      repeat' split at h
      all_goals simp at h
    · unfold GatewayAdmin.freshPublishDht at h
      repeat' split at h
      all_goals simp at h
    · unfold GatewayAdmin.freshPublishGroup at h
      repeat' split at h
      all_goals simp at h
    · simp at h

/-- **C147**: once a gateway has acknowledged an offer it does not deny it, as long as the offer is not expired: whatever requests come before and after,
those of its admin among them, and whoever asks in whatever way, no answer says that there is no offer for a cid of that offer.  `_partial`: with one
exception, the answers to requests for offers by their digests (`C147_unpaid_refuted`, `C147_empty_refuted`). -/
theorem C147_partial (H H512 : Hash) (sp op tp : Int) (h1 h2 : List (Env Sig × Request × Msg)) (E : Env Sig) (k : Gateway.Kind) (m m' : Msg)
    (hs : Sound H H512 (h1 ++ (E, .other k, m) :: h2)) (hk : k = .publishDht ∨ k = .publishGroup)
    (hm : Event.other (.message m') ∈ (step E (live (GatewayAdmin.newNode sp op tp) h1) (.other k) m).2)
    (pid : Option Id) (o : CidOffer) (ho : Publishes E.toEnv m pid o) (cid : Id) (hcid : cid ∈ o.cids) (hyear : o.expiry ≤ 253402300799)
    (E' : Env Sig) (hH : E'.H = H) (hord : ∀ l, (E'.order l).Perm l) (hnow : 0 ≤ E'.now - E'.off) (hexp : E'.now - E'.off < o.expiry)
    (k' : Gateway.Kind) (hk' : k' ≠ .standardOffer) (ask x : Msg)
    (hx : Event.other (.message x) ∈ (step E' (live (GatewayAdmin.newNode sp op tp) (h1 ++ (E, .other k, m) :: h2)) (.other k') ask).2) :
    ¬ Denies x cid := by
  obtain ⟨id, key, v, -, -, -, hx, -⟩ := answer_served hx
  refine undenied E'.toEnv _ cid (fun os f hg => ?_) k' hk' ask x hx
  obtain ⟨os', hg', -⟩ := C142_publish H H512 E'.order hord sp op tp h1 h2 E k m m' hs hk hm pid o ho cid hcid E'.off E'.now hnow hexp hyear
  have hg : SqlOffer.getOffers E'.H E'.order E'.off E'.now (live (GatewayAdmin.newNode sp op tp) (h1 ++ (E, .other k, m) :: h2)).db cid = .ok (os, f) := hg
  rw [hH, hg'] at hg
  cases hg
  rfl

/-- Whatever a gateway with a key and a wallet has acknowledged: asked for an offer by its digest, with a voucher that cannot be read, it answers for any cid, with
its signature, that there is none. -/
theorem C147_unpaid_refuted (sp op tp : Int) (hist : List (Env Sig × Request × Msg)) (id : Id) (kp : KeyPair) (v : KeyVersion)
    (hk : lastKey hist = some (some id, kp, v)) (hw : hasWallet hist = some true) (E : Env Sig) (hpr : ProtocolOk E.pr)
    (hsign : ∀ b, (Crypto.signMessage E.P kp v b).isSome) (ask : Msg) (cid : Id) (nonce ttl : Int) (ds : List (List Char)) (ch t : List Char)
    (hd : decode clientStandardDiscoverOfferRequest ask = .ok (some cid, nonce, ttl, ds, ch, t)) (httl : E.now ≤ ttl) (hv : E.readVoucher t = none) :
    ∃ x, (step E (live (GatewayAdmin.newNode sp op tp) hist) (.other .standardOffer) ask).2 = [.other (.message x)] ∧ Denies x cid := by
  obtain ⟨c, -, c2, c3, -, -, -, c7, -⟩ := C144_ready sp op tp hist id kp v hk .standardOffer (fun _ => hw) E ask
  obtain ⟨hid, hn⟩ := Gateway.standardOffer_req hd
  obtain ⟨x, g1, -, g3⟩ := Gateway.respond_writes (E := E.toEnv) (c := c) (b1 := .status 400) (b2 := .status 500) (by intro b; rw [c2, c3]; exact hsign b)
    (C30_clientStandardDiscoverOfferResponse E.pr hpr (some cid) nonce false [] [] true ch ⟨cid, rfl, hid cid rfl⟩ hn (by simp))
  refine ⟨x, ?_, .inr (.inr (.inl ⟨_, _, _, _, _, g3⟩))⟩
  rw [c7]
  have hr : Gateway.receive E.toEnv c ch t = ({ c with payment := c.payment }, .error) := by
    unfold Gateway.receive Payment.receive
    rw [hv]
  simp only [Gateway.serve]
  unfold Gateway.standardOffer
  rw [hd]
  dsimp only
  rw [if_neg (by omega), hr]
  dsimp only
  rw [g1]
  rfl

/-- Paying does not help against it: a request for no offer at all, with any voucher that is credited, is answered by the statement that there is none, and that no
payment is missing. -/
theorem C147_empty_refuted (E : Gateway.Env Sig) (hpr : ProtocolOk E.pr) (c : Gateway.Core Sig) (hsign : Gateway.CanSign E c) (ask : Msg) (cid : Id) (nonce ttl : Int)
    (ch t : List Char) (hd : decode clientStandardDiscoverOfferRequest ask = .ok (some cid, nonce, ttl, [], ch, t)) (httl : E.now ≤ ttl) (a : Int)
    (hc : Gateway.Credits E c ch t a) :
    ∃ x, (Gateway.serve E c .standardOffer ask).2 = [.message x] ∧ Denies x cid ∧
      decode clientStandardDiscoverOfferResponse x = .ok (some cid, nonce, false, [], [], false, []) := by
  obtain ⟨hid, hn⟩ := Gateway.standardOffer_req hd
  obtain ⟨x, g1, -, g3⟩ := Gateway.respond_writes (E := E) (c := c) (b1 := .status 400) (b2 := .status 500) hsign
    (C30_clientStandardDiscoverOfferResponse E.pr hpr (some cid) nonce false [] [] false [] ⟨cid, rfl, hid cid rfl⟩ hn (by simp))
  have hpos : 0 < a := by
    obtain ⟨-, ⟨a', w, cv, h1, -, -, -, h5, -⟩ | ⟨h1, -⟩⟩ := Payment.receive_spec E.verifyVoucher c.payment ⟨String.ofList ch, E.readVoucher t, E.chain (String.ofList ch)⟩
    · have h1 : (Payment.receive E.verifyVoucher c.payment (String.ofList ch) (E.readVoucher t) (E.chain (String.ofList ch))).2 = .credited a' := h1
      rw [hc] at h1
      cases h1
      exact h5
    · exact absurd hc (h1 a)
  refine ⟨x, ?_, .inr (.inr (.inl ⟨_, _, _, _, _, g3⟩)), g3⟩
  simp only [Gateway.serve]
  unfold Gateway.standardOffer
  rw [hd]
  dsimp only
  rw [if_neg (by omega), Gateway.receive_credited hc]
  simp only [List.length_nil]
  rw [if_pos (by simp; omega)]
  simp only [Gateway.offersByDigest, List.isEmpty_nil, Bool.not_true, List.map_nil]
  rw [g1]

/-! ## C145 -/

theorem free_step (E : Env Sig) (n : Node Sig) (k : Gateway.Kind) (hk : k = .establishment ∨ k = .standard ∨ k = .dht ∨ k = .peerDht) (m : Msg) :
    (step E n (.other k) m).1 = n := by
  have hs : ∀ c, (Gateway.serve E.toEnv c k m).1 = c := by
    intro c
    rcases hk with rfl | rfl | rfl | rfl
    · simp only [Gateway.serve]; unfold Gateway.establishment; repeat' split
      all_goals rfl
    · simp only [Gateway.serve]; unfold Gateway.standard; repeat' split
      all_goals rfl
    · simp only [Gateway.serve]; unfold Gateway.dht; repeat' split
      all_goals rfl
    · simp only [Gateway.serve]; unfold Gateway.peerDht; repeat' split
      all_goals rfl
  have hp : pays k = false := by rcases hk with rfl | rfl | rfl | rfl <;> rfl
  simp only [step, serveOther]
  split
  · rw [if_neg (by simp [hp])]
    dsimp only
    rw [hs]
    cases n with
    | mk id key payment a b c d e f => cases payment <;> rfl
  · split
    · unfold GatewayAdmin.freshPeerDht; repeat' split
      all_goals rfl
    · simp at hk
    · simp at hk
    · rfl

/-- A request for a free service, served however often before, is served again exactly as the first time: no nonce is remembered. -/
theorem C145_refuted (sp op tp : Int) (hist : List (Env Sig × Request × Msg)) (E : Env Sig) (k : Gateway.Kind)
    (hk : k = .establishment ∨ k = .standard ∨ k = .dht ∨ k = .peerDht) (m : Msg) (times : Nat) :
    (step E (live (GatewayAdmin.newNode sp op tp) (hist ++ List.replicate times (E, .other k, m))) (.other k) m).2 =
      (step E (live (GatewayAdmin.newNode sp op tp) hist) (.other k) m).2 := by
  have : live (GatewayAdmin.newNode sp op tp) (hist ++ List.replicate times (E, .other k, m)) = live (GatewayAdmin.newNode sp op tp) hist := by
    rw [live_append]
    generalize live (GatewayAdmin.newNode sp op tp) hist = n
    induction times with
    | zero => rfl
    | succ t ih =>
      rw [List.replicate_succ]
      show live (step E n (.other k) m).1 _ = n
      rw [free_step E n k hk m]
      exact ih
  rw [this]

/-- What a node has been paid. -/
def held (n : Node Sig) : Payment.Mgr Sig := n.payment.getD (Payment.newMgr "")

theorem step_grown {E : Env Sig} (hpr : ProtocolOk E.pr) (n : Node Sig) (r : Request) (m : Msg) (hw : walletSet E r m = none) :
    Gateway.Grown (held n) (held (step E n r m).1) := by
  cases r with
  | admin k =>
    have : (step E n (.admin k) m).1.payment = n.payment := by
      by_cases h2 : k = .initialiseV2
      · subst h2
        simp only [step, GatewayAdmin.serve]
        unfold GatewayAdmin.initialiseV2
        simp only [walletSet] at hw
        generalize decode gatewayAdminInitialiseKeyRequestV2 m = d at hw
        rcases d with ⟨id, _ | kp, _ | v, w⟩ | _ | _ <;> first | rfl | cases hw
      · exact (admin_frame E n k m).2.2.2 h2
    unfold held
    rw [this]
    exact .refl
  | other k =>
    simp only [step, serveOther]
    split
    · split
      · exact .refl
      · rename_i id key v _ _ _
        have h := (Gateway.serve_takes E.toEnv hpr ⟨id, key, v, n.searchPrice, n.offerPrice, n.topupAmount, n.db, n.payment.getD (Payment.newMgr "")⟩ k m).1
        unfold held
        cases hp : n.payment with
        | none => exact .refl
        | some p => rw [hp] at h; exact h
    · split
      · unfold GatewayAdmin.freshPeerDht; repeat' split
        all_goals exact .refl
      · unfold GatewayAdmin.freshPublishDht; repeat' split
        all_goals exact .refl
      · unfold GatewayAdmin.freshPublishGroup; repeat' split
        all_goals exact .refl
      · exact .refl

theorem live_grown : ∀ (hist : List (Env Sig × Request × Msg)), (∀ e ∈ hist, ProtocolOk e.1.pr ∧ walletSet e.1 e.2.1 e.2.2 = none) → ∀ n : Node Sig,
    Gateway.Grown (held n) (held (live n hist))
  | [], _, n => .refl
  | (E, r, m) :: h, hh, n =>
    (step_grown (hh (E, r, m) (by simp)).1 n r m (hh (E, r, m) (by simp)).2).trans (live_grown h (fun e he => hh e (by simp [he])) _)

/-- **C145 for paid services**: when a gateway has disclosed something in answer to a request that carries a voucher, then no request that carries this voucher
again, or another of the same lane and channel with an amount that is not higher, gets anything out of it: not the same request, not another one, whatever
happens in between, until the admin gives the gateway a wallet anew. -/
theorem C145_paid_partial (sp op tp : Int) (h1 h2 : List (Env Sig × Request × Msg)) (E E' : Env Sig) (hpr : ProtocolOk E.pr) (hpr' : ProtocolOk E'.pr)
    (k k' : Gateway.Kind) (hk : pays k = true) (hk' : pays k' = true) (m m' x x' : Msg) (ch t t' : List Char) (w w' : Payment.Voucher Sig)
    (hx : Event.other (.message x) ∈ (step E (live (GatewayAdmin.newNode sp op tp) h1) (.other k) m).2) (hdis : Gateway.Discloses x)
    (hm : carries k m = some (ch, t)) (hw : E.readVoucher t = some w)
    (hquiet : ∀ e ∈ h2, ProtocolOk e.1.pr ∧ walletSet e.1 e.2.1 e.2.2 = none)
    (hm' : carries k' m' = some (ch, t')) (hw' : E'.readVoucher t' = some w') (hlane : w'.body.lane = w.body.lane) (hle : w'.body.amount ≤ w.body.amount)
    (hx' : Event.other (.message x') ∈ (step E' (live (GatewayAdmin.newNode sp op tp) (h1 ++ (E, .other k, m) :: h2)) (.other k') m').2) :
    ¬ Gateway.Discloses x' := by
  intro hdis'
  rw [live_append] at hx'
  generalize live (GatewayAdmin.newNode sp op tp) h1 = n at *
  obtain ⟨id, key, v, -, -, hpay, hx, hafter⟩ := answer_served hx
  obtain ⟨ch1, t1, a, g1, g2, g3⟩ := (Gateway.serve_takes E.toEnv hpr _ k m).2 hk x hx hdis
  rw [hm] at g1
  cases g1
  have hp := hpay hk
  obtain ⟨p, hp⟩ := Option.isSome_iff_exists.1 hp
  rw [hw] at g3
  have hpaid : w.body.amount ≤ ((Payment.inC (held (step E n (.other k) m).1) (String.ofList ch)).lane w.body.lane).redeemed := by
    refine Int.le_trans (Gateway.receive_paid (a := a) ?_) (Int.le_trans (g3 (String.ofList ch) w.body.lane) ?_)
    · have := g2
      unfold Gateway.Credits at this
      rw [hw] at this
      exact this
    · unfold held
      rw [hafter, hp]
      exact Int.le_refl _
  have hlater := Int.le_trans hpaid (live_grown h2 hquiet (step E n (.other k) m).1 (String.ofList ch) w.body.lane)
  have hlive : live n ((E, .other k, m) :: h2) = live (step E n (.other k) m).1 h2 := rfl
  rw [hlive] at hx'
  generalize live (step E n (.other k) m).1 h2 = n' at *
  obtain ⟨id', key', v', -, -, -, hx', -⟩ := answer_served hx'
  obtain ⟨ch2, t2, b, f1, f2, -⟩ := (Gateway.serve_takes E'.toEnv hpr' _ k' m').2 hk' x' hx' hdis'
  rw [hm'] at f1
  cases f1
  unfold Gateway.Credits at f2
  rw [hw'] at f2
  exact (Payment.replay_refused E'.verifyVoucher _ ⟨String.ofList ch, some w', E'.chain (String.ofList ch)⟩ w' rfl (by
    rw [hlane]; exact Int.le_trans hle hlater)).1 b f2

/-! ## C146 -/

theorem decode_content {α : Type} (c : Codec α) {m m' : Msg} (ht : m'.type = m.type) (hb : m'.body = m.body) : decode c m' = decode c m := by
  unfold decode
  rw [ht, hb]

theorem senderKey_content (E : Gateway.Env Sig) (look : Id → Option Register.Record) (id : Option Id) {m m' : Msg}
    (hv : ∀ key, Crypto.verifyMessage E.P key m'.signature (Message.toSign m') = Crypto.verifyMessage E.P key m.signature (Message.toSign m)) :
    Gateway.senderKey E look id m' = Gateway.senderKey E look id m := by
  have : ∀ key, (Message.verify E.P key m').2 = (Message.verify E.P key m).2 := by
    intro key
    rw [Bool.eq_iff_iff, Gateway.verify_snd, Gateway.verify_snd, hv]
  unfold Gateway.senderKey
  simp only [this]

theorem serve_content (E : Gateway.Env Sig) (c : Gateway.Core Sig) (k : Gateway.Kind) {m m' : Msg} (ht : m'.type = m.type) (hb : m'.body = m.body)
    (hv : checksSender k = true → ∀ key, Crypto.verifyMessage E.P key m'.signature (Message.toSign m') = Crypto.verifyMessage E.P key m.signature (Message.toSign m)) :
    Gateway.serve E c k m' = Gateway.serve E c k m := by
  cases k <;> simp only [Gateway.serve]
  · unfold Gateway.establishment; rw [decode_content _ ht hb]
  · unfold Gateway.standard; rw [decode_content _ ht hb]
  · unfold Gateway.standardV2; rw [decode_content _ ht hb]
  · unfold Gateway.standardOffer; rw [decode_content _ ht hb]
  · unfold Gateway.dht; rw [decode_content _ ht hb]
  · unfold Gateway.dhtV2; rw [decode_content _ ht hb]
  · unfold Gateway.dhtOffer; rw [decode_content _ ht hb]
  · unfold Gateway.peerDht; rw [decode_content _ ht hb]; simp only [senderKey_content E _ _ (hv rfl)]
  · unfold Gateway.peerDhtV2; rw [decode_content _ ht hb]; simp only [senderKey_content E _ _ (hv rfl)]
  · unfold Gateway.peerDhtOffer; rw [decode_content _ ht hb]
  · unfold Gateway.publishDht; rw [decode_content _ ht hb]; simp only [senderKey_content E _ _ (hv rfl), hb]
  · unfold Gateway.publishGroup; rw [decode_content _ ht hb]; simp only [senderKey_content E _ _ (hv rfl)]

/-- A gateway takes no notice of the protocol versions in a request: whatever version it is in and whatever versions its sender supports, it is served just the same,
as long as it is signed properly where signatures are checked. -/
theorem C146_refuted (sp op tp : Int) (hist : List (Env Sig × Request × Msg)) (E : Env Sig) (k : Gateway.Kind) (m : Msg) (version : Int) (supported : Option (List Int))
    (signature : List Char)
    (hv : checksSender k = true → ∀ key, Crypto.verifyMessage E.P key signature (Message.toSign { m with version := version, supported := supported, signature := signature }) =
      Crypto.verifyMessage E.P key m.signature (Message.toSign m)) :
    step E (live (GatewayAdmin.newNode sp op tp) hist) (.other k) { m with version := version, supported := supported, signature := signature } =
      step E (live (GatewayAdmin.newNode sp op tp) hist) (.other k) m := by
  generalize live (GatewayAdmin.newNode sp op tp) hist = n
  generalize hm' : ({ m with version := version, supported := supported, signature := signature } : Msg) = m' at *
  have ht : m'.type = m.type := by rw [← hm']
  have hb : m'.body = m.body := by rw [← hm']
  have hv : checksSender k = true → ∀ key, Crypto.verifyMessage E.P key m'.signature (Message.toSign m') = Crypto.verifyMessage E.P key m.signature (Message.toSign m) := by
    intro h key
    have := hv h key
    rw [← this, ← hm']
  simp only [step, serveOther]
  split
  · rw [serve_content E.toEnv _ k ht hb hv]
  · split
    · unfold GatewayAdmin.freshPeerDht; rw [decode_content _ ht hb]; simp only [senderKey_content E.toEnv _ _ (hv rfl)]
    · unfold GatewayAdmin.freshPublishDht; rw [decode_content _ ht hb]; simp only [senderKey_content E.toEnv _ _ (hv rfl)]
    · unfold GatewayAdmin.freshPublishGroup; rw [decode_content _ ht hb]; simp only [senderKey_content E.toEnv _ _ (hv rfl)]
    · rfl

/-- Every message in it is of this kind, and carries these versions. -/
def Shaped (code : Int) (pr : Message.Protocol) (o : List (Gateway.Out Sig)) : Prop :=
  ∀ x, Gateway.Out.message x ∈ o → x.type = code ∧ x.version = pr.version ∧ x.supported = pr.supported

theorem Shaped.append {code : Int} {pr : Message.Protocol} {a b : List (Gateway.Out Sig)} (h1 : Shaped code pr a) (h2 : Shaped code pr b) : Shaped code pr (a ++ b) := by
  intro x hx
  rcases List.mem_append.1 hx with h | h
  · exact h1 x h
  · exact h2 x h

theorem respond_shaped {α : Type} {E : Gateway.Env Sig} {c : Gateway.Core Sig} {codec : Codec α} {b1 b2 : Gateway.Out Sig} {a : α} {code : Int} (hc : codec.code = code)
    (h1 : ∀ m, b1 ≠ .message m) (h2 : ∀ m, b2 ≠ .message m) : Shaped code E.pr (Gateway.respond E c codec b1 b2 a) := by
  intro x hx
  obtain ⟨m, sig, he, rfl⟩ := Gateway.respond_mem h1 h2 hx
  unfold encode at he
  obtain ⟨v, -, he⟩ := res_ok_of_bind he
  obtain ⟨fs, -, he⟩ := res_ok_of_bind he
  cases he
  exact ⟨hc, rfl, rfl⟩

theorem serve_shaped (E : Gateway.Env Sig) (c : Gateway.Core Sig) (k : Gateway.Kind) (m : Msg) : Shaped (answerCode k) E.pr (Gateway.serve E c k m).2 := by
  have quiet : ∀ {code : Int} {pr : Message.Protocol} (o : List (Gateway.Out Sig)), (∀ x, Gateway.Out.message x ∉ o) → Shaped code pr o := fun o h x hx => absurd hx (h x)
  cases k with
  | establishment =>
    simp only [Gateway.serve]; unfold Gateway.establishment
    try dsimp only
    repeat' split
    all_goals (try dsimp only)
    all_goals first | (refine respond_shaped rfl ?_ ?_ <;> simp; done) | (refine quiet _ ?_; simp; done)
  | standard =>
    simp only [Gateway.serve]; unfold Gateway.standard
    try dsimp only
    repeat' split
    all_goals (try dsimp only)
    all_goals first | (refine respond_shaped rfl ?_ ?_ <;> simp; done) | (refine quiet _ ?_; simp; done)
  | standardV2 =>
    simp only [Gateway.serve]; unfold Gateway.standardV2
    try dsimp only
    repeat' split
    all_goals (try dsimp only)
    all_goals first | (refine respond_shaped rfl ?_ ?_ <;> simp; done) | (refine quiet _ ?_; simp; done)
  | standardOffer =>
    simp only [Gateway.serve]; unfold Gateway.standardOffer
    try dsimp only
    repeat' split
    all_goals (try dsimp only)
    all_goals first | (refine respond_shaped rfl ?_ ?_ <;> simp; done) | (refine quiet _ ?_; simp; done)
  | peerDht =>
    simp only [Gateway.serve]; unfold Gateway.peerDht
    try dsimp only
    repeat' split
    all_goals (try dsimp only)
    all_goals first | (refine respond_shaped rfl ?_ ?_ <;> simp; done) | (refine quiet _ ?_; simp; done)
  | peerDhtV2 =>
    simp only [Gateway.serve]; unfold Gateway.peerDhtV2
    try dsimp only
    repeat' split
    all_goals (try dsimp only)
    all_goals first | (refine respond_shaped rfl ?_ ?_ <;> simp; done) | (refine quiet _ ?_; simp; done)
  | peerDhtOffer =>
    simp only [Gateway.serve]; unfold Gateway.peerDhtOffer
    try dsimp only
    repeat' split
    all_goals (try dsimp only)
    all_goals first | (refine respond_shaped rfl ?_ ?_ <;> simp; done) | (refine quiet _ ?_; simp; done)
  | publishDht =>
    simp only [Gateway.serve]; unfold Gateway.publishDht
    try dsimp only
    repeat' split
    all_goals (try dsimp only)
    all_goals first | (refine respond_shaped rfl ?_ ?_ <;> simp; done) | (refine quiet _ ?_; simp; done)
  | publishGroup =>
    simp only [Gateway.serve]; unfold Gateway.publishGroup
    try dsimp only
    repeat' split
    all_goals (try dsimp only)
    all_goals first | (refine respond_shaped rfl ?_ ?_ <;> simp; done) | (refine quiet _ ?_; simp; done)
  | dht =>
    simp only [Gateway.serve]; unfold Gateway.dht
    split
    · exact quiet _ (by simp)
    · exact quiet _ (by simp)
    split
    · exact quiet _ (by simp)
    split
    · exact quiet _ (by simp)
    split
    · exact quiet _ (by simp)
    split
    · exact quiet _ (by simp)
    split <;> rename_i hl
    · exact quiet _ (dhtLoop_eq hl)
    · exact Shaped.append (quiet _ (dhtLoop_eq hl)) (respond_shaped rfl (by simp) (by simp))
  | dhtV2 =>
    simp only [Gateway.serve]; unfold Gateway.dhtV2
    split
    · exact quiet _ (by simp)
    · exact quiet _ (by simp)
    split
    · exact quiet _ (by simp)
    split
    · exact quiet _ (by simp)
    split
    · exact quiet _ (by simp)
    split
    · exact quiet _ (by simp)
    · exact quiet _ (by simp)
    · dsimp only
      split <;> rename_i hl
      · exact Shaped.append (quiet _ (by intro x; split <;> simp)) (quiet _ (dhtV2Loop_eq hl))
      · exact Shaped.append (Shaped.append (quiet _ (by intro x; split <;> simp)) (quiet _ (dhtV2Loop_eq hl))) (respond_shaped rfl (by simp) (by simp))
  | dhtOffer =>
    simp only [Gateway.serve]; unfold Gateway.dhtOffer
    split
    · exact quiet _ (by simp)
    · exact quiet _ (by simp)
    split
    · exact quiet _ (by simp)
    · exact quiet _ (by simp)
    · dsimp only
      split <;> rename_i hl
      · exact Shaped.append (quiet _ (by intro x; split <;> simp)) (quiet _ (dhtOfferLoop_eq hl))
      · exact Shaped.append (Shaped.append (quiet _ (by intro x; split <;> simp)) (quiet _ (dhtOfferLoop_eq hl))) (respond_shaped rfl (by simp) (by simp))

/-- **C146, what is left**: every answer of a gateway is of the kind that belongs to the request, and says which versions the gateway itself uses and supports.  So there
is never a request to change the protocol, nor the statement that there is no common version. -/
theorem C146_partial (sp op tp : Int) (hist : List (Env Sig × Request × Msg)) (E : Env Sig) (k : Gateway.Kind) (m x : Msg)
    (hx : Event.other (.message x) ∈ (step E (live (GatewayAdmin.newNode sp op tp) hist) (.other k) m).2) :
    x.type = answerCode k ∧ x.version = E.pr.version ∧ x.supported = E.pr.supported ∧ x.type ≠ protocolChangeRequest.code ∧ x.type ≠ protocolChangeResponse.code := by
  obtain ⟨id, key, v, -, -, -, hx, -⟩ := answer_served hx
  obtain ⟨h1, h2, h3⟩ := serve_shaped E.toEnv _ k m x hx
  refine ⟨h1, h2, h3, ?_⟩
  rw [h1]
  cases k <;> exact ⟨by decide, by decide⟩

/-! ## C148 -/

/-- Whatever reputation the admin gives to whatever client: every request of clients, gateways and providers is then answered exactly as if it had not been set. -/
theorem C148_refuted (sp op tp : Int) (hist : List (Env Sig × Request × Msg)) (E0 : Env Sig) (set : Msg) (E : Env Sig) (k : Gateway.Kind) (m : Msg) :
    (step E (live (GatewayAdmin.newNode sp op tp) (hist ++ [(E0, .admin .setReputation, set)])) (.other k) m).2 =
      (step E (live (GatewayAdmin.newNode sp op tp) hist) (.other k) m).2 := by
  rw [live_append]
  generalize live (GatewayAdmin.newNode sp op tp) hist = n
  have hr : ∃ r, live n [(E0, .admin .setReputation, set)] = { n with reputation := r } := by
    show ∃ r, (GatewayAdmin.setReputation E0 n set).1 = _
    unfold GatewayAdmin.setReputation
    repeat' split
    all_goals exact ⟨_, rfl⟩
  obtain ⟨r, hr⟩ := hr
  rw [hr]
  simp only [step, serveOther]
  split
  · split <;> rfl
  · split
    · show List.map _ (GatewayAdmin.freshPeerDht E { n with reputation := r } m).2 = List.map _ (GatewayAdmin.freshPeerDht E n m).2
      unfold GatewayAdmin.freshPeerDht
      dsimp only
      repeat' split
      all_goals rfl
    · show List.map _ (GatewayAdmin.freshPublishDht E { n with reputation := r } m).2 = List.map _ (GatewayAdmin.freshPublishDht E n m).2
      unfold GatewayAdmin.freshPublishDht
      dsimp only
      repeat' split
      all_goals rfl
    · show List.map _ (GatewayAdmin.freshPublishGroup E { n with reputation := r } m).2 = List.map _ (GatewayAdmin.freshPublishGroup E n m).2
      unfold GatewayAdmin.freshPublishGroup
      dsimp only
      repeat' split
      all_goals rfl
    · rfl

/-! ## C149 -/

/-- Two offers that a gateway acknowledged, one after the other, are both found. -/
theorem both_found (H H512 : Hash) (order : List OfferRow → List OfferRow) (hord : ∀ l, (order l).Perm l) (sp op tp : Int)
    (h1 h2 h3 : List (Env Sig × Request × Msg)) (E1 E2 : Env Sig) (k1 k2 : Gateway.Kind) (m1 m1' m2 m2' : Msg)
    (hs : Sound H H512 (h1 ++ (E1, .other k1, m1) :: h2 ++ (E2, .other k2, m2) :: h3))
    (hk1 : k1 = .publishDht ∨ k1 = .publishGroup) (hk2 : k2 = .publishDht ∨ k2 = .publishGroup)
    (hm1 : Event.other (.message m1') ∈ (step E1 (live (GatewayAdmin.newNode sp op tp) h1) (.other k1) m1).2)
    (hm2 : Event.other (.message m2') ∈ (step E2 (live (GatewayAdmin.newNode sp op tp) (h1 ++ (E1, .other k1, m1) :: h2)) (.other k2) m2).2)
    (p1 p2 : Option Id) (o1 o2 : CidOffer) (ho1 : Publishes E1.toEnv m1 p1 o1) (ho2 : Publishes E2.toEnv m2 p2 o2) (cid : Id) (hc1 : cid ∈ o1.cids) (hc2 : cid ∈ o2.cids)
    (off now : Int) (hnow : 0 ≤ now - off) (hx1 : now - off < o1.expiry) (hx2 : now - off < o2.expiry) (hy1 : o1.expiry ≤ 253402300799)
    (hy2 : o2.expiry ≤ 253402300799) :
    ∃ os, SqlOffer.getOffers H order off now (live (GatewayAdmin.newNode sp op tp) (h1 ++ (E1, .other k1, m1) :: h2 ++ (E2, .other k2, m2) :: h3)).db cid = .ok (os, true) ∧
      (∃ o ∈ os, terms o = terms o1) ∧ ∃ o ∈ os, terms o = terms o2 := by
  obtain ⟨os, g1, o, ho, hto⟩ := C142_publish H H512 order hord sp op tp (h1 ++ (E1, .other k1, m1) :: h2) h3 E2 k2 m2 m2' hs hk2 hm2 p2 o2 ho2 cid hc2 off now hnow hx2 hy2
  have e : h1 ++ (E1, .other k1, m1) :: h2 ++ (E2, .other k2, m2) :: h3 = h1 ++ (E1, .other k1, m1) :: (h2 ++ (E2, .other k2, m2) :: h3) := by simp
  rw [e] at hs g1 ⊢
  obtain ⟨os', g1', o', ho', hto'⟩ := C142_publish H H512 order hord sp op tp h1 (h2 ++ (E2, .other k2, m2) :: h3) E1 k1 m1 m1' hs hk1 hm1 p1 o1 ho1 cid hc1 off now hnow hx1 hy1
  rw [g1] at g1'
  cases g1'
  exact ⟨os, g1, ⟨o', ho', hto'⟩, o, ho, hto⟩

/-- An offer is never replaced: whenever a gateway has acknowledged a group offer and later another one of the same provider for the same cid, with the same or a lower price
and the same or a later expiration date, it still hands out the first one beside the second until the first expires. -/
theorem C149_refuted (H H512 : Hash) (order : List OfferRow → List OfferRow) (hord : ∀ l, (order l).Perm l) (sp op tp : Int)
    (h1 h2 h3 : List (Env Sig × Request × Msg)) (E1 E2 : Env Sig) (m1 m1' m2 m2' : Msg)
    (hs : Sound H H512 (h1 ++ (E1, .other .publishGroup, m1) :: h2 ++ (E2, .other .publishGroup, m2) :: h3))
    (hm1 : Event.other (.message m1') ∈ (step E1 (live (GatewayAdmin.newNode sp op tp) h1) (.other .publishGroup) m1).2)
    (hm2 : Event.other (.message m2') ∈ (step E2 (live (GatewayAdmin.newNode sp op tp) (h1 ++ (E1, .other .publishGroup, m1) :: h2)) (.other .publishGroup) m2).2)
    (pid : Option Id) (o1 o2 : CidOffer) (ho1 : Publishes E1.toEnv m1 pid o1) (ho2 : Publishes E2.toEnv m2 pid o2) (cid : Id) (hc1 : cid ∈ o1.cids) (hc2 : cid ∈ o2.cids)
    (_ : o2.price ≤ o1.price) (hlonger : o1.expiry ≤ o2.expiry) (_ : terms o1 ≠ terms o2) (off now : Int) (hnow : 0 ≤ now - off) (hx : now - off < o1.expiry) (hy : o2.expiry ≤ 253402300799) :
    ∃ os, SqlOffer.getOffers H order off now
        (live (GatewayAdmin.newNode sp op tp) (h1 ++ (E1, .other .publishGroup, m1) :: h2 ++ (E2, .other .publishGroup, m2) :: h3)).db cid = .ok (os, true) ∧
      (∃ o ∈ os, terms o = terms o1) ∧ ∃ o ∈ os, terms o = terms o2 :=
  both_found H H512 order hord sp op tp h1 h2 h3 E1 E2 .publishGroup .publishGroup m1 m1' m2 m2' hs (.inr rfl) (.inr rfl) hm1 hm2 pid pid o1 o2 ho1 ho2 cid hc1 hc2 off now hnow
    hx (by omega) (by omega) hy

/-- **C149, what is left**: an offer with a higher price, or with an earlier expiration date, is kept beside the old one. -/
theorem C149_partial (H H512 : Hash) (order : List OfferRow → List OfferRow) (hord : ∀ l, (order l).Perm l) (sp op tp : Int)
    (h1 h2 h3 : List (Env Sig × Request × Msg)) (E1 E2 : Env Sig) (m1 m1' m2 m2' : Msg)
    (hs : Sound H H512 (h1 ++ (E1, .other .publishGroup, m1) :: h2 ++ (E2, .other .publishGroup, m2) :: h3))
    (hm1 : Event.other (.message m1') ∈ (step E1 (live (GatewayAdmin.newNode sp op tp) h1) (.other .publishGroup) m1).2)
    (hm2 : Event.other (.message m2') ∈ (step E2 (live (GatewayAdmin.newNode sp op tp) (h1 ++ (E1, .other .publishGroup, m1) :: h2)) (.other .publishGroup) m2).2)
    (pid : Option Id) (o1 o2 : CidOffer) (ho1 : Publishes E1.toEnv m1 pid o1) (ho2 : Publishes E2.toEnv m2 pid o2) (cid : Id) (hc1 : cid ∈ o1.cids) (hc2 : cid ∈ o2.cids)
    (_ : o1.price < o2.price ∨ (o2.price < o1.price ∧ o2.expiry < o1.expiry)) (off now : Int) (hnow : 0 ≤ now - off) (hx1 : now - off < o1.expiry)
    (hx2 : now - off < o2.expiry) (hy1 : o1.expiry ≤ 253402300799) (hy2 : o2.expiry ≤ 253402300799) :
    ∃ os, SqlOffer.getOffers H order off now
        (live (GatewayAdmin.newNode sp op tp) (h1 ++ (E1, .other .publishGroup, m1) :: h2 ++ (E2, .other .publishGroup, m2) :: h3)).db cid = .ok (os, true) ∧
      (∃ o ∈ os, terms o = terms o1) ∧ ∃ o ∈ os, terms o = terms o2 :=
  both_found H H512 order hord sp op tp h1 h2 h3 E1 E2 .publishGroup .publishGroup m1 m1' m2 m2' hs (.inr rfl) (.inr rfl) hm1 hm2 pid pid o1 o2 ho1 ho2 cid hc1 hc2 off now hnow
    hx1 hx2 hy1 hy2

/-! ## C152 -/

/-- Searching other gateways for a client changes nothing but payments. -/
theorem searching_step (E : Env Sig) (n : Node Sig) (k : Gateway.Kind) (hk : k = .dht ∨ k = .dhtV2 ∨ k = .dhtOffer) (m : Msg) :
    ∃ p : Payment.Mgr Sig, (step E n (.other k) m).1 = { n with payment := n.payment.map (fun _ => p) } := by
  simp only [step, serveOther]
  split
  · split
    · rename_i id key v hid hkey hp
      refine ⟨Payment.newMgr "", ?_⟩
      have : n.payment = none := by
        simp at hp
        exact hp.2
      cases n
      simp_all
    · rename_i id key v hid hkey hp
      obtain ⟨-, -, -, -, -, h6, h7⟩ := Gateway.serve_frame E.toEnv ⟨id, key, v, n.searchPrice, n.offerPrice, n.topupAmount, n.db, n.payment.getD (Payment.newMgr "")⟩ k m
      have h6 := h6 (by rcases hk with rfl | rfl | rfl <;> simp)
      have h7 := h7 (by rcases hk with rfl | rfl | rfl <;> simp) (by rcases hk with rfl | rfl | rfl <;> simp)
      dsimp only
      rw [h6, h7]
      exact ⟨_, rfl⟩
  · refine ⟨(n.payment.getD (Payment.newMgr "")), ?_⟩
    rcases hk with rfl | rfl | rfl <;> (cases n with | mk id key payment a b c d e f => cases payment <;> rfl)

theorem standard_payment (E : Gateway.Env Sig) (i : Id) (key : KeyPair) (v : KeyVersion) (a b c : Int) (db : SqlOffer.DB) (p q : Payment.Mgr Sig) (m : Msg) :
    (Gateway.standard E ⟨i, key, v, a, b, c, db, p⟩ m).2 = (Gateway.standard E ⟨i, key, v, a, b, c, db, q⟩ m).2 := by
  have hg : Gateway.getOffers E ⟨i, key, v, a, b, c, db, p⟩ = Gateway.getOffers E ⟨i, key, v, a, b, c, db, q⟩ := rfl
  have hr : ∀ {α : Type} (codec : Codec α) b1 b2 x, Gateway.respond E ⟨i, key, v, a, b, c, db, p⟩ codec b1 b2 x = Gateway.respond E ⟨i, key, v, a, b, c, db, q⟩ codec b1 b2 x :=
    fun _ _ _ _ => rfl
  unfold Gateway.standard
  rw [hg]
  repeat' split
  all_goals first | rfl | exact hr _ _ _ _

/-- A gateway keeps nothing of what it finds for a client: after it has searched other gateways, whatever they answered, what it itself says to a client about any cid is
exactly what it would have said before. -/
theorem C152_refuted (sp op tp : Int) (hist : List (Env Sig × Request × Msg)) (E : Env Sig) (k : Gateway.Kind) (hk : k = .dht ∨ k = .dhtV2 ∨ k = .dhtOffer) (m : Msg)
    (E' : Env Sig) (m' : Msg) :
    (live (GatewayAdmin.newNode sp op tp) (hist ++ [(E, .other k, m)])).db = (live (GatewayAdmin.newNode sp op tp) hist).db ∧
    (step E' (live (GatewayAdmin.newNode sp op tp) (hist ++ [(E, .other k, m)])) (.other .standard) m').2 =
      (step E' (live (GatewayAdmin.newNode sp op tp) hist) (.other .standard) m').2 := by
  rw [live_append]
  generalize live (GatewayAdmin.newNode sp op tp) hist = n
  show (step E n (.other k) m).1.db = n.db ∧ (step E' (step E n (.other k) m).1 (.other .standard) m').2 = _
  obtain ⟨p, hp⟩ := searching_step E n k hk m
  rw [hp]
  refine ⟨rfl, ?_⟩
  simp only [step, serveOther]
  split
  · rw [if_neg (by simp [pays]), if_neg (by simp [pays])]
    dsimp only
    simp only [Gateway.serve]
    rw [standard_payment (q := n.payment.getD (Payment.newMgr ""))]
  · rfl

/-! ## Cases that meet the hypotheses -/

/-- Like `exEnv`, with the wallet to which the vouchers of `Gateway.exEnv` are made out. -/
def exPaid : Env Unit := { exEnv with newPayments := fun _ _ _ => some (Payment.newMgr "gw") }

theorem exPaid_env : exPaid.toEnv = Journey.exG2 := rfl

/-- An offer of the provider `exId 9`, at a price. -/
def exPriced (p : Nat) : CidOffer :=
  { exSingle with
    price := p
    signature := (Crypto.signMessage Admin.keyed Offer.exKey 1 (utf8Bytes (render (Offer.signJson (Merkle.exId 9) exSingle.merkleRoot p exSingle.expiry exSingle.qos)))).getD [] }

theorem exPriced_built {p : Nat} (hp : p < 2 ^ 63) : Offer.Built Merkle.toyHash (exPriced p) := by
  obtain ⟨⟨h1, h2, -, h4, h5, h6⟩, h7, h8⟩ := exSinglesOk exSingle (by simp)
  exact ⟨⟨h1, h2, Nat.lt_trans hp (by decide), h4, h5, h6⟩, h7, h8⟩

theorem exPub_public : Admin.exPub.alg = Crypto.sigAlg ∧ Crypto.publicPart Admin.keyed Admin.exPub = Crypto.publicPart Admin.keyed Offer.exKey := ⟨rfl, by decide +kernel⟩

theorem exPriced_storable {p : Nat} (hp : p < 2 ^ 63) : Gateway.Storable Journey.exG2 Admin.exPub (exPriced p) := by
  refine ⟨⟨Merkle.exId 9, rfl, Crypto.C34_signed_verifies Admin.keyed Admin.keyed_correct Offer.exKey Admin.exPub 1 _ _ Offer.exKey_private exPub_public ?_⟩, hp, show 3 < 2 ^ 63 by decide⟩
  obtain ⟨s, hs⟩ := Option.isSome_iff_exists.1 (Admin.keyed_signs Offer.exKey_private 1
    (utf8Bytes (render (Offer.signJson (Merkle.exId 9) exSingle.merkleRoot p exSingle.expiry exSingle.qos))))
  unfold exPriced
  rw [hs]
  rfl

/-- The request that publishes it. -/
theorem exPublish {p : Nat} (hp : p < 2 ^ 63) :
    ∃ m, decode (providerPublishGroupOfferRequest Merkle.toyHash) m = .ok (some (Merkle.exId 9), 1, some (exPriced p)) ∧
      Gateway.Authentic Journey.exG2 Journey.exG2.provider (some (Merkle.exId 9)) m Admin.exPub := by
  obtain ⟨m, -, -, -, -, hsig⟩ := C30_providerPublishGroupOfferRequest Merkle.toyHash Message.defaultProtocol defaultProtocolOk (some (Merkle.exId 9)) 1 (some (exPriced p))
    ⟨_, rfl, Merkle.exId_proper 9⟩ ⟨by decide, by decide⟩ ⟨_, rfl, exPriced_built hp⟩
  obtain ⟨sig, hs⟩ := Option.isSome_iff_exists.1 (Admin.keyed_signs Offer.exKey_private 1 (Message.toSign m))
  have hsign : Message.sign Admin.keyed Offer.exKey 1 m = ({ m with signature := sig }, true) := by
    unfold Message.sign
    rw [hs]
  refine ⟨{ m with signature := sig }, (hsig sig).2, Merkle.exId 9, Admin.exRecord, rfl, by simp [Journey.exG2], GatewayAdmin.exRecord_key, ?_⟩
  exact Gateway.verify_snd.1 (Message.C27_signed_verifies Admin.keyed Admin.keyed_correct Offer.exKey Admin.exPub 1 Offer.exKey_private exPub_public m _ hsign).1

/-- It is acknowledged by a gateway whose key has been set. -/
theorem exAck {p : Nat} (hp : p < 2 ^ 63) {m : Msg} (hd : decode (providerPublishGroupOfferRequest Merkle.toyHash) m = .ok (some (Merkle.exId 9), 1, some (exPriced p)))
    (ha : Gateway.Authentic Journey.exG2 Journey.exG2.provider (some (Merkle.exId 9)) m Admin.exPub) (hist : List (Env Unit × Request × Msg))
    (hk : lastKey hist = some (some (Merkle.exId 1), Offer.exKey, 1)) :
    ∃ m', Event.other (.message m') ∈ (step exPaid (live (GatewayAdmin.newNode 3 2 3) hist) (.other .publishGroup) m).2 := by
  obtain ⟨c, c1, c2, c3, -, -, -, c7, -⟩ := C144_ready 3 2 3 hist (Merkle.exId 1) Offer.exKey 1 hk .publishGroup (by simp [pays]) exPaid m
  rw [exPaid_env] at c7
  have hstore := exPriced_storable hp
  have hd' : decode (providerPublishGroupOfferRequest Journey.exG2.H) m = .ok (some (Merkle.exId 9), 1, some (exPriced p)) := by
    rw [Journey.exG2_hash]; exact hd
  have hsign : Gateway.CanSign Journey.exG2 c := by
    intro b
    rw [c2]
    exact Admin.keyed_signs Offer.exKey_private c.keyVersion b
  generalize ho : exPriced p = o at *
  have hserved := Gateway.C52_publishGroup_served Journey.exG2 Journey.exG2_works defaultProtocolOk c hsign (by rw [c1]; exact Merkle.exId_proper 1) m (some (Merkle.exId 9)) 1 o
    Admin.exPub hd' ha
  rw [if_pos hstore] at hserved
  obtain ⟨db, m', d, -, -, hout, -⟩ := hserved
  refine ⟨m', ?_⟩
  rw [c7]
  show Event.other _ ∈ (Gateway.publishGroup Journey.exG2 c m).2.map Event.other
  rw [hout]
  simp

theorem exPaid_sound (hist : List (Env Unit × Request × Msg)) (h : ∀ e ∈ hist, e.1 = exPaid) : Sound Merkle.toyHash exPaid.H512 hist :=
  ⟨fun e he => by rw [h e he]; exact ⟨rfl, rfl, Gateway.exEnv_works⟩, fun l _ x _ y _ b b' _ _ h => h⟩

/-- C149: an offer at 5, then one at 4 (and one at 6). -/
example (q : Nat) (hq : q < 2 ^ 63) : ∃ set m1 m2,
    let hist := [(exPaid, .admin .initialiseV2, set), (exPaid, .other .publishGroup, m1), (exPaid, .other .publishGroup, m2)]
    ∃ os, SqlOffer.getOffers Merkle.toyHash exPaid.order 0 1000 (live (GatewayAdmin.newNode 3 2 3) hist).db (Merkle.exId 2) = .ok (os, true) ∧
      (∃ o ∈ os, terms o = terms (exPriced 5)) ∧ ∃ o ∈ os, terms o = terms (exPriced q) := by
  obtain ⟨set, h1⟩ := exSet Offer.exKey Offer.exKey_private 1
  obtain ⟨m1, d1, a1⟩ := exPublish (p := 5) (by decide)
  obtain ⟨m2, d2, a2⟩ := exPublish hq
  obtain ⟨m1', g1⟩ := exAck (by decide) d1 a1 [(exPaid, .admin .initialiseV2, set)] (by simp [lastKey, exSet_key h1])
  obtain ⟨m2', g2⟩ := exAck hq d2 a2 [(exPaid, .admin .initialiseV2, set), (exPaid, .other .publishGroup, m1)] (by
    have hn : ∀ x, keySet (.other .publishGroup) x = none := fun _ => rfl
    simp [lastKey, exSet_key h1, hn])
  have hs := exPaid_sound [(exPaid, .admin .initialiseV2, set), (exPaid, .other .publishGroup, m1), (exPaid, .other .publishGroup, m2)] (by
    intro e he; simp at he; rcases he with rfl | rfl | rfl <;> rfl)
  refine ⟨set, m1, m2, ?_⟩
  have c1 : Merkle.exId 2 ∈ (exPriced 5).cids := by simp [exPriced, exSingle]
  have c2 : Merkle.exId 2 ∈ (exPriced q).cids := by simp [exPriced, exSingle]
  have e1 : (exPriced 5).expiry = 1700000000 := rfl
  have e2 : (exPriced q).expiry = 1700000000 := rfl
  have p1 : (exPriced 5).price = 5 := rfl
  have p2 : (exPriced q).price = q := rfl
  have t : q ≠ 5 → terms (exPriced 5) ≠ terms (exPriced q) := by
    intro hne h
    have : (5 : Nat) = q := by
      simp [terms, exPriced] at h
      exact h
    omega
  by_cases hq5 : q = 5
  · subst hq5
    generalize exPriced 5 = o at *
    exact both_found Merkle.toyHash exPaid.H512 exPaid.order (fun _ => .refl _) 3 2 3 [(exPaid, .admin .initialiseV2, set)] [] [] exPaid exPaid .publishGroup .publishGroup m1 m1' m2 m2'
      hs (.inr rfl) (.inr rfl) g1 g2 (some (Merkle.exId 9)) (some (Merkle.exId 9)) o o ⟨1, .inr d1⟩ ⟨1, .inr d2⟩ (Merkle.exId 2) c1 c1 0 1000 (by decide) (by omega) (by omega) (by omega) (by omega)
  have t := t hq5
  generalize exPriced 5 = o at *
  generalize exPriced q = o' at *
  by_cases hle : q ≤ 5
  · exact C149_refuted Merkle.toyHash exPaid.H512 exPaid.order (fun _ => .refl _) 3 2 3 [(exPaid, .admin .initialiseV2, set)] [] [] exPaid exPaid m1 m1' m2 m2'
      hs g1 g2 (some (Merkle.exId 9)) o o' ⟨1, .inr d1⟩ ⟨1, .inr d2⟩ (Merkle.exId 2) c1 c2 (by omega) (by omega) t 0 1000 (by decide) (by omega) (by omega)
  · exact C149_partial Merkle.toyHash exPaid.H512 exPaid.order (fun _ => .refl _) 3 2 3 [(exPaid, .admin .initialiseV2, set)] [] [] exPaid exPaid m1 m1' m2 m2'
      hs g1 g2 (some (Merkle.exId 9)) o o' ⟨1, .inr d1⟩ ⟨1, .inr d2⟩ (Merkle.exId 2) c1 c2 (.inl (by omega)) 0 1000 (by decide) (by omega) (by omega) (by omega) (by omega)

/-- C145 and C147: a gateway that has an offer and a wallet discloses it for a voucher; asked again with the same voucher it does not, and it does not deny it either. -/
example : ∃ set m ask x,
    let hist := [(exPaid, .admin .initialiseV2, set), (exPaid, .other .publishGroup, m), (exPaid, .admin .initialiseV2, set)]
    Event.other (.message x) ∈ (step exPaid (live (GatewayAdmin.newNode 3 2 3) hist) (.other .standardV2) ask).2 ∧ Gateway.Discloses x ∧ ¬ Denies x (Merkle.exId 2) ∧
      ∀ x', Event.other (.message x') ∈ (step exPaid (live (GatewayAdmin.newNode 3 2 3) (hist ++ [(exPaid, .other .standardV2, ask)])) (.other .standardV2) ask).2 →
        ¬ Gateway.Discloses x' ∧ ¬ Denies x' (Merkle.exId 2) := by
  obtain ⟨set, h1⟩ := exSet Offer.exKey Offer.exKey_private 1
  obtain ⟨m, d1, a1⟩ := exPublish (p := 5) (by decide)
  obtain ⟨m', g1⟩ := exAck (by decide) d1 a1 [(exPaid, .admin .initialiseV2, set)] (by simp [lastKey, exSet_key h1])
  have c1 : Merkle.exId 2 ∈ (exPriced 5).cids := by simp [exPriced, exSingle]
  have e1 : (exPriced 5).expiry = 1700000000 := rfl
  obtain ⟨ask, -, -, -, -, hask⟩ := C30_clientStandardDiscoverRequestV2 Message.defaultProtocol defaultProtocolOk (some (Merkle.exId 2)) 7 2000 ['c'] ['5']
    ⟨_, rfl, Merkle.exId_proper 2⟩ ⟨by decide, by decide⟩ ⟨by decide, by decide⟩
  have hask := (hask []).2
  generalize ({ ask with signature := [] } : Msg) = ask at hask
  generalize hh : [(exPaid, Request.admin .initialiseV2, set), (exPaid, .other .publishGroup, m), (exPaid, .admin .initialiseV2, set)] = hist
  have hs : Sound Merkle.toyHash exPaid.H512 hist := exPaid_sound hist (by subst hh; intro e he; simp at he; rcases he with rfl | rfl | rfl <;> rfl)
  have hs' : Sound Merkle.toyHash exPaid.H512 (hist ++ [(exPaid, .other .standardV2, ask)]) :=
    exPaid_sound _ (by subst hh; intro e he; simp at he; rcases he with rfl | rfl | rfl | rfl <;> rfl)
  have hnode : (live (GatewayAdmin.newNode 3 2 3) hist).id = some (Merkle.exId 1) ∧ (live (GatewayAdmin.newNode 3 2 3) hist).key = some (Offer.exKey, 1) ∧
      (live (GatewayAdmin.newNode 3 2 3) hist).payment = some (Payment.newMgr "gw") := by
    rw [← hh]
    show (GatewayAdmin.initialiseV2 exPaid _ set).1.id = _ ∧ (GatewayAdmin.initialiseV2 exPaid _ set).1.key = _ ∧ (GatewayAdmin.initialiseV2 exPaid _ set).1.payment = _
    unfold GatewayAdmin.initialiseV2
    rw [h1]
    exact ⟨rfl, rfl, rfl⟩
  obtain ⟨n1, n2, n3⟩ := hnode
  have hsp := (C50_life_partial 3 2 3 hist).1
  generalize ho : exPriced 5 = o at *
  obtain ⟨os, f1, o', f2, -⟩ := C142_publish Merkle.toyHash exPaid.H512 exPaid.order (fun _ => .refl _) 3 2 3 [(exPaid, .admin .initialiseV2, set)] [(exPaid, .admin .initialiseV2, set)]
    exPaid .publishGroup m m' (by rw [← hh] at hs; exact hs) (.inr rfl) g1 (some (Merkle.exId 9)) o ⟨1, .inr d1⟩ (Merkle.exId 2) c1 0 1000 (by decide) (by omega) (by omega)
  obtain ⟨os', f1', f3⟩ := C142_lookup Merkle.toyHash exPaid.H512 exPaid.order (fun _ => .refl _) 3 2 3 hist hs (Merkle.exId 2) (Merkle.exId_proper 2) 0 1000 (by decide)
  have f1 : SqlOffer.getOffers Merkle.toyHash exPaid.order 0 1000 (live (GatewayAdmin.newNode 3 2 3) hist).db (Merkle.exId 2) = .ok (os, true) := by
    rw [← hh]; exact f1
  rw [f1] at f1'
  injection f1' with f1'
  injection f1' with f1' _
  subst f1'
  have hprov : ∀ o ∈ os, o.providerID ≠ none := by
    intro o ho
    obtain ⟨-, -, e, -, he⟩ := f3 o ho
    obtain ⟨⟨⟨p, hp, -⟩, -⟩, -⟩ := brings_built he
    rw [hp]
    simp
  have hstep : ∀ k m, pays k = true → (step exPaid (live (GatewayAdmin.newNode 3 2 3) hist) (.other k) m).2 =
      (Gateway.serve Journey.exG2 ⟨Merkle.exId 1, Offer.exKey, 1, (live (GatewayAdmin.newNode 3 2 3) hist).searchPrice, (live (GatewayAdmin.newNode 3 2 3) hist).offerPrice,
        (live (GatewayAdmin.newNode 3 2 3) hist).topupAmount, (live (GatewayAdmin.newNode 3 2 3) hist).db, Payment.newMgr "gw"⟩ k m).2.map .other := by
    intro k m hk
    simp only [step, serveOther, n1, n2, n3]
    rw [if_neg (by simp)]
    rfl
  obtain ⟨x, x1, x2⟩ := Gateway.C49_standardV2_served Journey.exG2 defaultProtocolOk ⟨Merkle.exId 1, Offer.exKey, 1, (live (GatewayAdmin.newNode 3 2 3) hist).searchPrice,
      (live (GatewayAdmin.newNode 3 2 3) hist).offerPrice, (live (GatewayAdmin.newNode 3 2 3) hist).topupAmount, (live (GatewayAdmin.newNode 3 2 3) hist).db, Payment.newMgr "gw"⟩
    (Journey.exG2_signs _ rfl) ask (Merkle.exId 2) 7 2000 ['c'] ['5'] hask (show (1000 : Int) ≤ 2000 by decide)
    ⟨5, by unfold Gateway.Credits; dsimp only; decide +kernel, by show (live (GatewayAdmin.newNode 3 2 3) hist).searchPrice ≤ 5; rw [hsp]; decide⟩ os true f1 hprov
  have hx : Event.other (.message x) ∈ (step exPaid (live (GatewayAdmin.newNode 3 2 3) hist) (.other .standardV2) ask).2 := by
    rw [hstep .standardV2 ask rfl]
    simp only [Gateway.serve]
    rw [x1]
    simp
  have hdis : Gateway.Discloses x := by
    refine .inr (.inl ⟨_, x2, ?_⟩)
    intro h
    have h : Gateway.digestTexts Journey.exG2 os = [] := h
    unfold Gateway.digestTexts at h
    rw [List.map_eq_nil_iff] at h
    rw [h] at f2
    cases f2
  have hcar : carries .standardV2 ask = some (['c'], ['5']) := by simp [carries, hask]
  have hpart : ∀ h2 (_ : Sound Merkle.toyHash exPaid.H512 ([(exPaid, .admin .initialiseV2, set)] ++ (exPaid, .other .publishGroup, m) :: h2)) x,
      Event.other (.message x) ∈ (step exPaid (live (GatewayAdmin.newNode 3 2 3) ([(exPaid, .admin .initialiseV2, set)] ++ (exPaid, .other .publishGroup, m) :: h2))
        (.other .standardV2) ask).2 → ¬ Denies x (Merkle.exId 2) := fun h2 hs x hx =>
    C147_partial Merkle.toyHash exPaid.H512 3 2 3 [(exPaid, .admin .initialiseV2, set)] h2 exPaid .publishGroup m m' hs (.inr rfl) g1 (some (Merkle.exId 9)) o ⟨1, .inr d1⟩
      (Merkle.exId 2) c1 (by omega) exPaid rfl (fun _ => .refl _) (by decide) (by rw [e1]; decide) .standardV2 (by simp) ask x hx
  refine ⟨set, m, ask, x, ?_⟩
  dsimp only
  rw [hh]
  refine ⟨hx, hdis, ?_, fun x' hx' => ⟨?_, ?_⟩⟩
  · refine hpart [(exPaid, .admin .initialiseV2, set)] ?_ x ?_
    · rw [← hh] at hs; exact hs
    · rw [← hh] at hx; exact hx
  · exact C145_paid_partial 3 2 3 hist [] exPaid exPaid defaultProtocolOk defaultProtocolOk .standardV2 .standardV2 rfl rfl ask ask x x' ['c'] ['5'] ['5'] _ _ hx hdis hcar
      (show Gateway.exRead ['5'] = some _ from rfl) (by simp) hcar (show Gateway.exRead ['5'] = some _ from rfl) rfl (by decide) hx'
  · refine hpart [(exPaid, .admin .initialiseV2, set), (exPaid, .other .standardV2, ask)] ?_ x' ?_
    · rw [← hh] at hs'; exact hs'
    · rw [← hh] at hx'; exact hx'

/-- C147: the two ways in which an offer is denied nevertheless. -/
example : ∃ set ask x, (step exPaid (live (GatewayAdmin.newNode 3 2 3) [(exPaid, .admin .initialiseV2, set)]) (.other .standardOffer) ask).2 = [.other (.message x)] ∧
    Denies x (Merkle.exId 2) := by
  obtain ⟨set, h1⟩ := exSet Offer.exKey Offer.exKey_private 1
  obtain ⟨ask, -, -, -, -, hask⟩ := C30_clientStandardDiscoverOfferRequest Message.defaultProtocol defaultProtocolOk (some (Merkle.exId 2)) 7 2000 [['d']] ['c'] ['?']
    ⟨_, rfl, Merkle.exId_proper 2⟩ ⟨by decide, by decide⟩ ⟨by decide, by decide⟩
  have := C147_unpaid_refuted 3 2 3 [(exPaid, .admin .initialiseV2, set)] (Merkle.exId 1) Offer.exKey 1 (by simp [lastKey, exSet_key h1])
    (by simp [hasWallet, walletSet, h1, exPaid]) exPaid defaultProtocolOk (fun b => Admin.keyed_signs Offer.exKey_private 1 b) _ (Merkle.exId 2) 7 2000 [['d']] ['c'] ['?']
    (hask []).2 (by decide) (by decide)
  obtain ⟨x, h⟩ := this
  exact ⟨set, _, x, h⟩
example : ∃ ask x, (Gateway.serve Gateway.exTopEnv Gateway.exPoor .standardOffer ask).2 = [.message x] ∧ Denies x (Merkle.exId 2) := by
  obtain ⟨ask, -, -, -, -, hask⟩ := C30_clientStandardDiscoverOfferRequest Message.defaultProtocol defaultProtocolOk (some (Merkle.exId 2)) 7 2000 [] ['c'] ['5']
    ⟨_, rfl, Merkle.exId_proper 2⟩ ⟨by decide, by decide⟩ ⟨by decide, by decide⟩
  obtain ⟨x, h1, h2, -⟩ := C147_empty_refuted Gateway.exTopEnv defaultProtocolOk Gateway.exPoor Gateway.exCore_signs _ (Merkle.exId 2) 7 2000 ['c'] ['5'] (hask []).2
    (by decide) 5 Gateway.exPoor_credits
  exact ⟨_, x, h1, h2⟩

/-- C145, C146, C148 and C152: a gateway with a key answers an establishment request; it answers it the tenth time; it answers it in version 99; and it answers it after
whatever the admin says about reputations. -/
example (E0 : Env Unit) (reputation : Msg) : ∃ set ask x,
    let n := GatewayAdmin.newNode 3 2 3
    let hist := [(exPaid, .admin .initialiseV2, set)]
    (step exPaid (live n hist) (.other .establishment) ask).2 = [.other (.message x)] ∧
    x.version = 1 ∧
    (step exPaid (live n (hist ++ List.replicate 9 (exPaid, .other .establishment, ask))) (.other .establishment) ask).2 = [.other (.message x)] ∧
    (step exPaid (live n hist) (.other .establishment) { ask with version := 99, supported := some [98, 99] }).2 = [.other (.message x)] ∧
    (step exPaid (live n (hist ++ [(E0, .admin .setReputation, reputation)])) (.other .establishment) ask).2 = [.other (.message x)] := by
  obtain ⟨set, h1⟩ := exSet Offer.exKey Offer.exKey_private 1
  obtain ⟨ask, -, -, -, -, hask⟩ := C30_clientEstablishmentRequest Message.defaultProtocol defaultProtocolOk (some (Merkle.exId 3)) ['c'] 2000 ⟨_, rfl, Merkle.exId_proper 3⟩
    ⟨by decide, by decide⟩
  have hask := (hask []).2
  generalize ({ ask with signature := [] } : Msg) = ask at hask
  obtain ⟨x, hx, -⟩ := C144_establishment 3 2 3 [(exPaid, .admin .initialiseV2, set)] (Merkle.exId 1) (Merkle.exId_proper 1) Offer.exKey 1 (by simp [lastKey, exSet_key h1]) exPaid
    defaultProtocolOk (fun b => Admin.keyed_signs Offer.exKey_private 1 b) ask (Merkle.exId 3) ['c'] 2000 hask (by decide)
  refine ⟨set, ask, x, ?_⟩
  generalize [(exPaid, Request.admin .initialiseV2, set)] = hist at *
  refine ⟨hx, (C146_partial 3 2 3 hist exPaid .establishment ask x (by rw [hx]; simp)).2.1, ?_, ?_, ?_⟩
  · rw [C145_refuted 3 2 3 hist exPaid .establishment (.inl rfl) ask 9]
    exact hx
  · have := C146_refuted 3 2 3 hist exPaid .establishment ask 99 (some [98, 99]) ask.signature (by simp [checksSender])
    have hx' := hx
    rw [← this] at hx'
    exact hx'
  · rw [C148_refuted 3 2 3 hist E0 reputation exPaid .establishment ask]
    exact hx

end FcRetrieval.GatewayLife
