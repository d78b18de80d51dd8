import Verif.Lemmas.GatewayExamples
import Verif.Props.Merkle
/-!
# Lemmas on the publishing of offers
-/
set_option linter.unusedSimpArgs false

namespace FcRetrieval.Gateway
open FcRetrieval.Ids (Id)
open FcRetrieval.Message (Msg)
open FcRetrieval.Merkle (Hash)
open FcRetrieval.Offer (CidOffer Built)
open FcRetrieval.Crypto (KeyPair)
open FcRetrieval.Wire
open FcRetrieval.Codecs
open FcRetrieval.SqlOffer (DB OfferRow ContentRow offerRow contentRows)

variable {Sig : Type}

theorem decU64_range {j : Option Json} {n : Nat} (h : decU64 j = some n) : n < 2 ^ 64 := by
  unfold decU64 decNum at h
  split at h
  · cases h; decide
  · cases h; decide
  · split at h
    · rename_i hr
      cases h
      omega
    · cases h
  · cases h

theorem mapFromString_proper : ∀ {ss : List (List Char)} {ids : List Id}, Ids.mapFromString ss = some ids → ∀ c ∈ ids, c.length = 32
  | [], ids, h, c, hc => by
    simp [Ids.mapFromString] at h
    subst h
    simp at hc
  | s :: ss, ids, h, c, hc => by
    unfold Ids.mapFromString at h
    cases h1 : Ids.fromHex s with
    | none => simp [h1] at h
    | some x =>
      cases h2 : Ids.mapFromString ss with
      | none => simp [h1, h2] at h
      | some xs =>
        simp [h1, h2] at h
        subst h
        rcases List.mem_cons.1 hc with rfl | hc
        · exact fromHex_len h1
        · exact mapFromString_proper h2 c hc

/-- An offer that is read from JSON and names a provider is as the constructor builds it. -/
theorem unmarshal_built {H : Hash} {j : Json} {o : CidOffer} (h : Offer.unmarshal H j = .ok o) (hp : o.providerID ≠ none) : Built H o := by
  unfold Offer.unmarshal at h
  obtain ⟨fs, -, h⟩ := res_ok_of_bind h
  obtain ⟨pid, -, h⟩ := res_ok_of_bind h
  obtain ⟨cids, -, h⟩ := res_ok_of_bind h
  obtain ⟨price, h1, h⟩ := res_ok_of_bind h
  obtain ⟨expiry, h2, h⟩ := res_ok_of_bind h
  obtain ⟨qos, h3, h⟩ := res_ok_of_bind h
  obtain ⟨sig, -, h⟩ := res_ok_of_bind h
  split at h
  · cases h
  rename_i ids hids
  obtain ⟨root, h4, h⟩ := res_ok_of_bind h
  cases h
  dsimp only at hp
  have hroot := ofOption_ok h4
  obtain ⟨p, hp⟩ := Option.ne_none_iff_exists'.1 hp
  have hexp := decI64_range (ofOption_ok h2)
  refine ⟨⟨⟨p, hp, fromHex_len hp⟩, mapFromString_proper hids, decU64_range (ofOption_ok h1), decU64_range (ofOption_ok h3), ?_, ?_⟩, ?_, hroot⟩
  · have := hexp.1; dsimp only; omega
  · have := hexp.2; dsimp only; omega
  · intro h0
    dsimp only at h0
    subst h0
    simp [Merkle.rootHex, Merkle.rootBytes] at hroot

theorem decAll_mem {α : Type} {f : Option Json → Res α} : ∀ {l : List Json} {as : List α}, decAll f l = .ok as → ∀ a ∈ as, ∃ j, f (some j) = .ok a
  | [], as, h, a, ha => by cases h; simp at ha
  | j :: l, as, h, a, ha => by
    unfold decAll at h
    obtain ⟨b, h1, h⟩ := res_ok_of_bind h
    obtain ⟨bs, h2, h⟩ := res_ok_of_bind h
    cases h
    rcases List.mem_cons.1 ha with rfl | ha
    · exact ⟨j, h1⟩
    · exact decAll_mem h2 a ha

theorem publishDht_req {H : Hash} {m : Msg} {pid : Option Id} {nonce : Int} {offers : List CidOffer}
    (h : decode (providerPublishDHTOfferRequest H) m = .ok (pid, nonce, offers)) :
    inI64 nonce ∧ ∀ o ∈ offers, o.providerID ≠ none → Built H o ∧ o.cids.length = 1 := by
  obtain ⟨-, fs, ⟨w1, w2, w3, w4, ⟨⟩⟩, h1, h2⟩ := decode_inv h
  have h2' : (if (w4 : List CidOffer).any (fun o => decide (o.cids.length ≠ 1)) = true then Res.err else Res.ok (Ids.fromHex w1, w2, w4)) = Res.ok (pid, nonce, offers) := h2
  split at h2'
  · cases h2'
  rename_i hone
  cases h2'
  refine ⟨i64_range (decFields_cons (decFields_cons h1).2).1, ?_⟩
  intro o ho hp
  have hd := (decFields_cons (decFields_cons (decFields_cons (decFields_cons h1).2).2).2).1
  have hd' : (slice (offer H)).dec (memberFor "single_offers" fs) = .ok offers := hd
  refine ⟨?_, ?_⟩
  · unfold slice at hd'
    dsimp only at hd'
    split at hd'
    · cases hd'; cases ho
    · cases hd'; cases ho
    · obtain ⟨j, hj⟩ := decAll_mem hd' o ho
      exact unmarshal_built hj hp
    · cases hd'
  · apply Classical.byContradiction
    intro hn
    exact hone (List.any_eq_true.2 ⟨o, ho, decide_eq_true hn⟩)

theorem publishGroup_req {H : Hash} {m : Msg} {pid : Option Id} {nonce : Int} {o : Option CidOffer}
    (h : decode (providerPublishGroupOfferRequest H) m = .ok (pid, nonce, o)) :
    inI64 nonce ∧ ∃ o', o = some o' ∧ (o'.providerID ≠ none → Built H o') := by
  obtain ⟨-, fs, ⟨w1, w2, w3, ⟨⟩⟩, h1, h2⟩ := decode_inv h
  cases h2
  refine ⟨i64_range (decFields_cons (decFields_cons h1).2).1, w3, rfl, fun hp => ?_⟩
  have hd : (offer H).dec (memberFor "offer" fs) = .ok w3 := (decFields_cons (decFields_cons (decFields_cons h1).2).2).1
  unfold offer at hd
  dsimp only at hd
  split at hd
  · cases hd
    exact absurd rfl hp
  · exact unmarshal_built hd hp

/-! ## the database -/

theorem runStmt_rows (db : DB) (s : SqlOffer.Stmt) :
    (∀ r ∈ (SqlOffer.runStmt db s).offers, r ∈ db.offers ∨ s = .offer r) ∧ (∀ r ∈ (SqlOffer.runStmt db s).contents, r ∈ db.contents ∨ s = .content r) := by
  cases s with
  | offer x =>
    unfold SqlOffer.runStmt
    dsimp only
    split
    · exact ⟨fun _ h => .inl h, fun _ h => .inl h⟩
    · refine ⟨fun r h => ?_, fun _ h => .inl h⟩
      rcases List.mem_append.1 h with h | h
      · exact .inl h
      · simp at h
        exact .inr (by rw [h])
  | content x =>
    unfold SqlOffer.runStmt
    dsimp only
    split
    · exact ⟨fun _ h => .inl h, fun _ h => .inl h⟩
    · refine ⟨fun _ h => .inl h, fun r h => ?_⟩
      rcases List.mem_append.1 h with h | h
      · exact .inl h
      · simp at h
        exact .inr (by rw [h])

theorem runContents_rows (fails : Nat → Bool) : ∀ (i : Nat) (rs : List ContentRow) (db : DB) (ok : Bool),
    (∀ r ∈ (SqlOffer.runContents fails i rs db ok).1.offers, r ∈ db.offers) ∧
      (∀ r ∈ (SqlOffer.runContents fails i rs db ok).1.contents, r ∈ db.contents ∨ r ∈ rs)
  | _, [], db, ok => ⟨fun _ h => h, fun _ h => .inl h⟩
  | i, x :: rs, db, ok => by
    unfold SqlOffer.runContents
    split
    · obtain ⟨h1, h2⟩ := runContents_rows fails (i + 1) rs db false
      refine ⟨h1, fun r h => ?_⟩
      rcases h2 r h with h | h
      · exact .inl h
      · exact .inr (by simp [h])
    · obtain ⟨h1, h2⟩ := runContents_rows fails (i + 1) rs (SqlOffer.runStmt db (.content x)) true
      obtain ⟨g1, g2⟩ := runStmt_rows db (.content x)
      refine ⟨fun r h => ?_, fun r h => ?_⟩
      · rcases g1 r (h1 r h) with h | h
        · exact h
        · cases h
      · rcases h2 r h with h | h
        · rcases g2 r h with h | h
          · exact .inl h
          · cases h; exact .inr (by simp)
        · exact .inr (by simp [h])

/-- Whatever statements the database refuses, an insert adds only rows of the offer. -/
theorem insertOffer_rows {H512 : Hash} {fails : Nat → Bool} {db db' : DB} {o : CidOffer} {ok : Bool}
    (h : SqlOffer.insertOffer H512 fails db o = .ok (db', ok)) :
    ∃ d p, Offer.digest H512 o = .ok d ∧ o.providerID = some p ∧ (∀ r ∈ db'.offers, r ∈ db.offers ∨ r = offerRow (hexEncode d) p o) ∧
      (∀ r ∈ db'.contents, r ∈ db.contents ∨ r ∈ contentRows (hexEncode d) o) := by
  unfold SqlOffer.insertOffer at h
  obtain ⟨d, hd, h⟩ := res_ok_of_bind h
  split at h
  · cases h
  rename_i p hp
  refine ⟨d, p, hd, hp, ?_⟩
  split at h
  · cases h
    exact ⟨fun _ h => .inl h, fun _ h => .inl h⟩
  · have h' := congrArg (fun x => match x with | Res.ok (a, _) => a | _ => db) h
    simp only [Res.pure_ok] at h'
    rw [← h']
    obtain ⟨h1, h2⟩ := runContents_rows fails 0 (contentRows (hexEncode d) o) (SqlOffer.runStmt db (.offer (offerRow (hexEncode d) p o))) true
    obtain ⟨g1, g2⟩ := runStmt_rows db (.offer (offerRow (hexEncode d) p o))
    refine ⟨fun r h => ?_, fun r h => ?_⟩
    · rcases g1 r (h1 r h) with h | h
      · exact .inl h
      · cases h; exact .inr rfl
    · rcases h2 r h with h | h
      · rcases g2 r h with h | h
        · exact .inl h
        · cases h
      · exact .inr h

theorem offer_verify_ok {P : Crypto.Prims} {k : KeyPair} {o : CidOffer} :
    Offer.verify P k o = .ok () ↔ ∃ raw, Offer.toSign o.providerID o.merkleRoot o.price o.expiry o.qos = .ok raw ∧
      Crypto.verifyMessage P k o.signature raw = some true := by
  unfold Offer.verify
  cases ht : Offer.toSign o.providerID o.merkleRoot o.price o.expiry o.qos with
  | ok raw =>
    simp only [Res.bind_ok, Offer.checkSig, Res.ok.injEq, exists_eq_left']
    split <;> simp_all
  | err => simp
  | panic => simp

theorem verify_provider {P : Crypto.Prims} {k : KeyPair} {o : CidOffer} (h : Offer.verify P k o = .ok ()) : o.providerID ≠ none := by
  obtain ⟨raw, h, -⟩ := offer_verify_ok.1 h
  intro hn
  rw [hn] at h
  cases h

end FcRetrieval.Gateway
