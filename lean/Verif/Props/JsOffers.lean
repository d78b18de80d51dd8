import Verif.Spec.JsOffers
import Verif.Props.JsDiscovery
/-!
# C190: what the JavaScript client takes for an answer about offers
-/

set_option linter.unusedSimpArgs false

namespace FcRetrieval.Js
open FcRetrieval.Crypto (Prims)
open FcRetrieval.JsonGrammar
open FcRetrieval.Register (Record)

theorem decodeOffers_some {m : FcrMsg} {c n : Json} {o : Option Json} (h : decodeOffers m = some (some c, some n, o)) :
    ∃ body gs, m.type = some (.num 111) ∧ m.body = some body ∧ Whole true (.obj gs) (toText body) ∧
      field "pieceCID" gs = some c ∧ field "nonce" gs = some n ∧ field "subCIDOffers" gs = o := by
  unfold decodeOffers at h
  split at h
  · rename_i ht
    split at h
    · cases h
    · rename_i b hb
      split at h
      · cases h
      · rename_i j hj
        split at h
        · rename_i c' n' o' hc hn ho
          simp only [Option.some.injEq, Prod.mk.injEq] at h
          obtain ⟨rfl, rfl, rfl⟩ := h
          obtain ⟨gs, rfl, e1⟩ := prop_obj hc
          obtain ⟨gs', e0, e2⟩ := prop_obj hn
          cases e0
          simp only [prop, Option.some.injEq] at ho
          exact ⟨b, gs, ht, hb, C153_refused hj, e1, e2, ho⟩
        · cases h
  · cases h

/-- **C190 (partial)**, one request: offers are returned only if, under the key of the gateway's registration, a text has been signed which tells these offers, with
the nonce of the request and with a content identifier that prints as the one asked for. -/
theorem C190_request_partial (P : Prims) (net : Net) (g : Record) (cid : Cid) (nonce ttl : Int) (voucher : List Char) (o : Option Json)
    (h : requestOffers P net g cid nonce ttl voucher = some o) : SignedOffers P g cid.text nonce o := by
  unfold requestOffers at h
  split at h
  · cases h
  rename_i r hr
  split at h
  · cases h
  rename_i pk hpk
  split at h
  · rename_i hv
    split at h
    · cases h
    · rename_i c k o' _ hd
      split at h
      · cases h
      · rename_i hcid
        split at h
        · cases h
        · rename_i hk
          cases h
          obtain ⟨body, gs, h1, h2, h4, h5, h6, h7⟩ := decodeOffers_some hd
          obtain ⟨fs, f1, f2, f3⟩ := verified_members r h1 h2
          unfold verify at hv
          split at hv
          · unfold verifyMessage at hv
            split at hv
            · cases hv
            · rename_i sig _
              have hs := Option.some.inj hv
              unfold secpVerify at hs
              rw [Bool.and_eq_true] at hs
              have hk' : nonce = k := Decidable.of_not_not hk
              exact ⟨pk, toVerify r, sig, hpk, hs.2, fs, body, gs, c, f1, f2, f3, h4, h5, Decidable.of_not_not hcid, by rw [h6, hk'], h7⟩
          · cases hv
    · cases h
  · cases h

/-- **C190 (partial)**: a standard discovery that returns a list has had such an answer, under the key of a gateway that is active.  Missing: that the answer is about the
content identifier asked for (`C190_other_cid_refuted`), and the first of the two requests (`C190_search_refuted`). -/
theorem C190_discovery_partial (P : Prims) (S : Prices) (c : Client) (purse : Option Purse) (t : Trip) (cid : Cid) (gateway : List Char) (l : List Json)
    (h : (findStandard P S c purse t cid gateway).2 = some (some l)) :
    ∃ g o, mget c.active gateway = some g ∧ SignedOffers P g cid.text t.nonce o := by
  unfold findStandard at h
  split at h
  · simp at h
  · rename_i g hg
    split at h
    · simp at h
    · dsimp only at h
      split at h
      · split at h
        · simp at h
        · rename_i o ho
          exact ⟨g, o, hg, C190_request_partial _ _ _ _ _ _ _ _ ho⟩
      · simp at h

/-- **C157 (refuted)**, when a standard discovery ends without an exception and not with `undefined`: exactly when the gateway is active, there is a wallet, the search was accepted
and the answer about offers was accepted and lists none, as an array or as a text.  It returns none then. -/
theorem C157_when_refuted (P : Prims) (S : Prices) (c : Client) (purse : Option Purse) (t : Trip) (cid : Cid) (gateway : List Char) (l : List Json) :
    (findStandard P S c purse t cid gateway).2 = some (some l) ↔
      l = [] ∧ ∃ g p, mget c.active gateway = some g ∧ purse = some p ∧ requestSearch P t.search g = true ∧
        ∃ o, requestOffers P t.offers g cid t.nonce t.nowMs (voucherText (charge p g.address g.nodeID S.search S.topup).2) = some (some o) ∧ (o = .arr [] ∨ o = .str []) := by
  unfold findStandard
  cases hg : mget c.active gateway with
  | none => simp
  | some g =>
    cases purse with
    | none => simp
    | some p =>
      dsimp only
      by_cases hs : requestSearch P t.search g = true
      · rw [if_pos hs]
        cases ho : requestOffers P t.offers g cid t.nonce t.nowMs (voucherText (charge p g.address g.nodeID S.search S.topup).2) with
        | none =>
          constructor
          · intro h; cases h
          · rintro ⟨-, g', p', h1, h2, -, o, h3, -⟩
            cases h1; cases h2
            rw [ho] at h3; cases h3
        | some o =>
          dsimp only
          constructor
          · intro h
            unfold collect at h
            split at h
            · cases h; exact ⟨rfl, g, p, rfl, rfl, hs, _, ho, .inl rfl⟩
            · cases h; exact ⟨rfl, g, p, rfl, rfl, hs, _, ho, .inr rfl⟩
            · cases h
          · rintro ⟨rfl, g', p', h1, h2, -, o', h3, h4⟩
            cases h1; cases h2
            rw [ho] at h3
            cases h3
            rcases h4 with rfl | rfl <;> rfl
      · rw [if_neg hs]
        constructor
        · intro h; cases h
        · rintro ⟨-, g', p', h1, h2, h3, -⟩
          cases h1; exact absurd h3 hs

/-- **C190 (refuted)**, the content identifier: what a gateway says for one content identifier is taken for every other.  All of them print the same. -/
theorem C190_other_cid_refuted (P : Prims) (answer : Option (Nat × List Char)) (g : Record) (a b : List Char) (nonce ttl : Int) (voucher : List Char) :
    requestOffers P (fun _ _ => answer) g (plainCid a) nonce ttl voucher = requestOffers P (fun _ _ => answer) g (plainCid b) nonce ttl voucher := by
  unfold requestOffers sendMessage post plainCid
  simp only [toText]
  rfl

/-- **C190 (refuted)**, the search: whether its answer is taken does not depend on whether the signature is right. -/
theorem C190_search_refuted (P Q : Prims) (net : Net) (g : Record) : requestSearch P net g = requestSearch Q net g := by
  unfold requestSearch
  split
  · rfl
  · split
    · rfl
    · unfold verify
      split
      · unfold verifyMessage
        split <;> rfl
      · rfl

/-! ## Cases -/

/-- Nothing is taken as signed. -/
def exBad : Prims := { Crypto.toy with verify := fun _ _ _ => false }

/-- A gateway that tells one offer for the content identifier `b`. -/
def exOther : Option (Nat × List Char) := some (200, "{\"message_type\":111,\"message_body\":\"{\\\"pieceCID\\\":{\\\"id\\\":\\\"b\\\"},\\\"nonce\\\":5,\\\"subCIDOffers\\\":[7]}\",\"message_signature\":\"".toList ++
  hexEncode (List.replicate 69 0) ++ "\"}".toList)

/-- The answer about `b` is taken for `a`; with another nonce or with a wrong signature it is not; as the answer to a search it is taken with a wrong signature, too. -/
example : (requestOffers exGood (fun _ _ => exOther) exGateway (plainCid ['a']) 5 0 []).isSome = true ∧
    (requestOffers exGood (fun _ _ => exOther) exGateway (plainCid ['a']) 6 0 []).isSome = false ∧
    (requestOffers exBad (fun _ _ => exOther) exGateway (plainCid ['a']) 5 0 []).isSome = false ∧
    requestSearch exBad (fun _ _ => exOther) exGateway = true := by decide +kernel

/-- A discovery that returns a list. -/
example : (findStandard exGood ⟨4, 100⟩ ⟨[(['a'], exGateway)], []⟩ (some exPurse) ⟨exAnswer ['[', ']'], exAnswer ['[', ']'], 5, 0⟩ (plainCid ['a']) ['a']).2.isSome = true := by
  decide +kernel

end FcRetrieval.Js
