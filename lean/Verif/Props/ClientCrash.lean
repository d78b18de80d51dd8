import Verif.Spec.ClientCrash
import Verif.Lemmas.ClientCalm
import Verif.Props.ClientReturn
import Verif.Props.CodecsAll
/-!
# C75: any limit is handled; C112: no answer crashes the client
-/
set_option linter.unusedSimpArgs false

namespace FcRetrieval.Client
open FcRetrieval.Ids (Id)
open FcRetrieval.Message (Msg)
open FcRetrieval.Offer (SubOffer)
open FcRetrieval.Payment (Addr Voucher)
open FcRetrieval.Register (Record)
open FcRetrieval.Wire
open FcRetrieval.Codecs
open FcRetrieval.Merkle (exId exId_proper)
open FcRetrieval.Gateway (res_ok_of_bind)
open FcRetrieval.Provider (exMsg exMsg_decode)

attribute [local irreducible] exMsg

variable {Sig : Type}

/-! ## requests -/

theorem encAll_calm {α : Type} {f : α → Res Json} (h : ∀ a, f a ≠ .panic) : ∀ l : List α, encAll f l ≠ .panic
  | [] => by simp [encAll]
  | a :: l => by
    unfold encAll
    exact bind_ne_panic (h a) (fun _ => bind_ne_panic (encAll_calm h l) (fun _ => by simp))

def CalmF (f : FieldT) : Prop := ∀ v, f.enc v ≠ .panic

theorem calm_str : CalmF str := fun _ h => by cases h
theorem calm_i64 : CalmF i64 := fun _ h => by cases h
theorem calm_bool : CalmF Wire.bool := fun _ h => by cases h
theorem calm_slice {f : FieldT} (h : CalmF f) : CalmF (slice f) := by
  intro v hv
  unfold slice at hv
  exact bind_ne_panic (encAll_calm h v) (fun _ => by simp) hv

theorem encFields_calm : ∀ (s : Schema) (v : Vals s), (∀ x ∈ s, CalmF x.2) → encFields s v ≠ .panic
  | [], _, _ => by simp [encFields]
  | (_, f) :: s, (v, vs), h => by
    show (f.enc v >>= fun j => encFields s vs >>= fun js => Res.ok ((_, j) :: js)) ≠ .panic
    refine bind_ne_panic (h (_, f) (List.mem_cons_self ..) v) (fun _ => bind_ne_panic (encFields_calm s vs (fun x hx => h x (List.mem_cons_of_mem _ hx))) (fun _ => by simp))

theorem encode_calm {α : Type} {c : Codec α} {pr : Message.Protocol} {a : α} (hs : ∀ x ∈ c.schema, CalmF x.2) (hw : c.toWire a ≠ .panic) : encode c pr a ≠ .panic := by
  unfold encode
  exact bind_ne_panic hw (fun v => bind_ne_panic (encFields_calm _ v hs) (fun _ => by simp))

theorem ask_calm {E : Env Sig} {n : Nat} {r : Record} {q : Res Msg} (hq : q ≠ .panic) (hk : r.signingKey ≠ []) : (ask E n r q).2 ≠ .panic := by
  unfold ask
  split
  · exact absurd rfl hq
  · simp
  · refine bind_ne_panic ?_ (fun a => bind_ne_panic (decodePublicKey_calm hk) (fun k => ?_))
    · unfold Res.ofOption; split <;> simp
    · split <;> simp

theorem bind_calm {α β : Type} {x : Res α} {f : α → Res β} (hx : x ≠ .panic) (hf : ∀ a, x = .ok a → f a ≠ .panic) : (x >>= f) ≠ .panic := by
  cases x with
  | ok a => exact hf a rfl
  | err => simp
  | panic => exact absurd rfl hx

theorem ask_answer {E : Env Sig} {n : Nat} {r : Record} {q : Res Msg} {a : Msg} (h : (ask E n r q).2 = .ok a) : ∃ m, Answered E n r m a := by
  obtain ⟨m, -, -, h⟩ := ask_ok h
  exact ⟨m, h⟩

/-! ## the requesters -/

section requesters
variable {E : Env Sig} {n : Nat} {r : Record} (hk : r.signingKey ≠ []) (hu : ∀ m a, Answered E n r m a → Usable a)
include hk hu

theorem requestStandard_calm {cid : Id} {nonce ttl : Int} {ch v : List Char} : (requestStandard E n r cid nonce ttl ch v).2 ≠ .panic ∧
    ∀ offers, (requestStandard E n r cid nonce ttl ch v).2 = .ok offers → ∀ o ∈ offers, Whole o := by
  have he : encode clientStandardDiscoverRequest E.pr (some cid, nonce, ttl, ch, v) ≠ .panic :=
    encode_calm (by simp [clientStandardDiscoverRequest, calm_str, calm_i64]) (fun h => by cases h)
  have hnp : NeverPanics clientStandardDiscoverResponse :=
    neverPanics_of clientStandardDiscoverResponse (by simp [clientStandardDiscoverResponse, (np_slice np_bool), (np_slice np_subOffer), np_bool, np_i64, np_str]) (fun _ h => by cases h)
  unfold requestStandard
  constructor
  · refine bind_calm (ask_calm he hk) (fun a ha => bind_calm (hnp a) (fun x hx => ?_))
    obtain ⟨m, ha⟩ := ask_answer ha
    obtain ⟨c, nonce', found, offers, funded⟩ := x
    obtain ⟨h1, -⟩ := (hu m a ha).standard _ _ _ _ _ hx
    cases c with
    | none => exact absurd rfl h1
    | some c =>
      simp only [deref, Res.bind_ok]
      split
      · simp
      · split <;> simp
  · intro offers h
    obtain ⟨a, ha, h⟩ := res_ok_of_bind h
    obtain ⟨⟨c, nonce', found, offers', funded⟩, hx, h⟩ := res_ok_of_bind h
    obtain ⟨m, ha⟩ := ask_answer ha
    obtain ⟨-, h2⟩ := (hu m a ha).standard _ _ _ _ _ hx
    obtain ⟨c', -, h⟩ := res_ok_of_bind h
    split at h
    · cases h
    · split at h
      · cases h
      · cases h
        exact h2

theorem requestStandardV2_calm {cid : Id} {nonce ttl : Int} {ch v : List Char} : (requestStandardV2 E n r cid nonce ttl ch v).2 ≠ .panic := by
  have he : encode clientStandardDiscoverRequestV2 E.pr (some cid, nonce, ttl, ch, v) ≠ .panic :=
    encode_calm (by simp [clientStandardDiscoverRequestV2, calm_str, calm_i64]) (fun h => by cases h)
  have hnp : NeverPanics clientStandardDiscoverResponseV2 :=
    neverPanics_of clientStandardDiscoverResponseV2 (by simp [clientStandardDiscoverResponseV2, (np_slice np_bool), (np_slice np_str), np_bool, np_i64, np_str]) (fun _ h => by cases h)
  unfold requestStandardV2
  refine bind_calm (ask_calm he hk) (fun a ha => bind_calm (hnp a) (fun x hx => ?_))
  obtain ⟨m, ha⟩ := ask_answer ha
  obtain ⟨c, nonce', found, digests, funded, required, ch'⟩ := x
  have h1 := (hu m a ha).standardV2 _ _ _ _ _ _ _ hx
  cases c with
  | none => exact absurd rfl h1
  | some c =>
    simp only [deref, Res.bind_ok]
    split
    · simp
    · split
      · simp
      · split <;> simp

theorem requestStandardOffer_calm {cid : Id} {nonce ttl : Int} {ds : List (List Char)} {ch v : List Char} :
    (requestStandardOffer E n r cid nonce ttl ds ch v).2 ≠ .panic ∧
    ∀ offers, (requestStandardOffer E n r cid nonce ttl ds ch v).2 = .ok offers → ∀ o ∈ offers, Whole o := by
  have he : encode clientStandardDiscoverOfferRequest E.pr (some cid, nonce, ttl, ds, ch, v) ≠ .panic :=
    encode_calm (by simp [clientStandardDiscoverOfferRequest, calm_str, calm_i64, calm_slice]) (fun h => by cases h)
  have hnp : NeverPanics clientStandardDiscoverOfferResponse :=
    neverPanics_of clientStandardDiscoverOfferResponse (by simp [clientStandardDiscoverOfferResponse, (np_slice np_bool), (np_slice np_subOffer), np_bool, np_i64, np_str]) (fun _ h => by cases h)
  unfold requestStandardOffer
  constructor
  · refine bind_calm (ask_calm he hk) (fun a ha => bind_calm (hnp a) (fun x hx => ?_))
    obtain ⟨m, ha⟩ := ask_answer ha
    obtain ⟨c, nonce', found, offers, funded, required, ch'⟩ := x
    obtain ⟨h1, -⟩ := (hu m a ha).standardOffer _ _ _ _ _ _ _ hx
    cases c with
    | none => exact absurd rfl h1
    | some c =>
      simp only [deref, Res.bind_ok]
      split
      · simp
      · split
        · simp
        · split <;> simp
  · intro offers h
    obtain ⟨a, ha, h⟩ := res_ok_of_bind h
    obtain ⟨⟨c, nonce', found, offers', funded, required, ch'⟩, hx, h⟩ := res_ok_of_bind h
    obtain ⟨m, ha⟩ := ask_answer ha
    obtain ⟨-, h2⟩ := (hu m a ha).standardOffer _ _ _ _ _ _ _ hx
    obtain ⟨c', -, h⟩ := res_ok_of_bind h
    split at h
    · cases h
    · split at h
      · cases h
      · split at h
        · cases h
        · cases h
          exact h2

theorem requestDht_calm {cid : Id} {nonce ttl num : Int} {ch v : List Char} : (requestDht E n r cid nonce ttl num ch v).2 ≠ .panic ∧
    ∀ l, (requestDht E n r cid nonce ttl num ch v).2 = .ok l → ∀ x ∈ l, ∀ cid nonce' found offers funded,
      decode gatewayDHTDiscoverResponse x.2 = .ok (cid, nonce', found, offers, funded) → ∀ o ∈ offers, Whole o := by
  have he : encode clientDHTDiscoverRequest E.pr (some cid, nonce, ttl, num, false, ch, v) ≠ .panic :=
    encode_calm (by simp [clientDHTDiscoverRequest, calm_str, calm_i64, calm_bool]) (fun h => by cases h)
  unfold requestDht
  constructor
  · refine bind_calm (ask_calm he hk) (fun a ha => ?_)
    obtain ⟨m, ha⟩ := ask_answer ha
    refine bind_calm (hu m a ha).dht.1 (fun x hx => ?_)
    dsimp only
    split
    · simp
    · split
      · simp
      · split <;> simp
  · intro l h
    obtain ⟨a, ha, h⟩ := res_ok_of_bind h
    obtain ⟨⟨ids, answers, missed, nonce', required, ch'⟩, hx, h⟩ := res_ok_of_bind h
    obtain ⟨m, ha⟩ := ask_answer ha
    have h2 := (hu m a ha).dht.2 _ _ _ _ _ _ hx
    dsimp only at h
    split at h
    · cases h
    · split at h
      · cases h
      · split at h
        · cases h
        · cases h
          intro x hx
          exact h2 x.2 (List.of_mem_zip (show (x.1, x.2) ∈ _ from hx)).2

theorem requestDhtV2_calm {cid : Id} {nonce ttl num : Int} {ch v : List Char} : (requestDhtV2 E n r cid nonce ttl num ch v).2 ≠ .panic := by
  have he : encode clientDHTDiscoverRequestV2 E.pr (some cid, nonce, ttl, num, false, ch, v) ≠ .panic :=
    encode_calm (by simp [clientDHTDiscoverRequestV2, calm_str, calm_i64, calm_bool]) (fun h => by cases h)
  unfold requestDhtV2
  refine bind_calm (ask_calm he hk) (fun a ha => ?_)
  obtain ⟨m, ha⟩ := ask_answer ha
  refine bind_calm (hu m a ha).dhtV2 (fun x hx => ?_)
  dsimp only
  split
  · simp
  · split <;> simp

omit hk hu in
theorem gatherOffers_calm : ∀ l : List (Id × Msg), gatherOffers l ≠ .panic
  | [] => by simp [gatherOffers]
  | (id, m) :: l => by
    have hnp : NeverPanics gatewayDHTDiscoverOfferResponse :=
      neverPanics_of gatewayDHTDiscoverOfferResponse (by simp [gatewayDHTDiscoverOfferResponse, (np_slice np_bool), (np_slice np_subOffer), np_bool, np_i64, np_str]) (fun _ h => by cases h)
    unfold gatherOffers
    split
    · rename_i h; exact absurd h (hnp m)
    · exact gatherOffers_calm l
    · split
      · simp
      · exact bind_ne_panic (gatherOffers_calm l) (fun _ => by simp)

theorem requestDhtOffer_calm {ids : List Id} {cid : Id} {nonce : Int} {dss : List (List (List Char))} {ch v : List Char} :
    (requestDhtOffer E n r ids cid nonce dss ch v).2 ≠ .panic := by
  have he : encode clientDHTDiscoverOfferRequest E.pr (some cid, nonce, dss, ids, ch, v) ≠ .panic :=
    encode_calm (by simp [clientDHTDiscoverOfferRequest, calm_str, calm_i64, calm_slice]) (fun h => by cases h)
  unfold requestDhtOffer
  refine bind_calm (ask_calm he hk) (fun a ha => ?_)
  obtain ⟨m, ha⟩ := ask_answer ha
  refine bind_calm (hu m a ha).dhtOffer (fun x hx => ?_)
  dsimp only
  split
  · simp
  · split
    · simp
    · exact gatherOffers_calm _

end requesters

/-! ## the calls -/

theorem topupAndPay_calm {E : Env Sig} {c : Client Sig} {n : Nat} {recipient : Addr} {amount : Int} (h : c.payment ≠ none) :
    (topupAndPay E c n recipient amount).2.2 ≠ .panic ∧ (topupAndPay E c n recipient amount).1.payment ≠ none := by
  unfold topupAndPay
  cases hp : c.payment with
  | none => exact absurd hp h
  | some p =>
    have : (paymentMgr E c).payment = some p := by unfold paymentMgr; rw [hp]; exact hp
    rw [this]
    dsimp only
    split <;> exact ⟨by simp, by simp⟩

theorem payFor_calm {E : Env Sig} {c : Client Sig} {n : Nat} {recipient : Addr} {amount : Int} (h : c.payment ≠ none) :
    (payFor E c n recipient amount).2.2 ≠ .panic ∧ (payFor E c n recipient amount).1.payment ≠ none := by
  unfold payFor
  cases hp : c.payment with
  | none => exact absurd hp h
  | some p =>
    dsimp only
    split
    · exact ⟨by simp, by simp⟩
    · exact ⟨by simp, by simp⟩
    · exact topupAndPay_calm (by simp)

theorem takeValid_calm {E : Env Sig} {max : Int} : ∀ {os : List SubOffer} {n : Nat}, (∀ o ∈ os, checkOffer E o ≠ .panic) → takeValid E max n os ≠ .panic
  | [], _, _ => by simp [takeValid]
  | o :: os, n, h => by
    have ih := fun n => takeValid_calm (max := max) (os := os) (n := n) (fun x hx => h x (List.mem_cons_of_mem _ hx))
    unfold takeValid
    split
    · rename_i hp; exact absurd hp (h o (List.mem_cons_self ..))
    · exact ih n
    · split
      · simp
      · exact bind_ne_panic (ih (n + 1)) (fun _ => by simp)

theorem dhtAnswers_calm {E : Env Sig} (hg : HaveKeys E.gateway) (hp : HaveKeys E.provider) : ∀ (l : List (Id × Msg)) (found : List (List Char × List SubOffer)),
    (∀ x ∈ l, ∀ cid nonce' found offers funded, decode gatewayDHTDiscoverResponse x.2 = .ok (cid, nonce', found, offers, funded) → ∀ o ∈ offers, Whole o) →
    dhtAnswers E found l ≠ .panic
  | [], _, _ => by simp [dhtAnswers]
  | (id, m) :: l, found, h => by
    have hnp : NeverPanics gatewayDHTDiscoverResponse :=
      neverPanics_of gatewayDHTDiscoverResponse (by simp [gatewayDHTDiscoverResponse, (np_slice np_bool), (np_slice np_subOffer), np_bool, np_i64, np_str]) (fun _ h => by cases h)
    have ih := fun f => dhtAnswers_calm hg hp l f (fun x hx => h x (List.mem_cons_of_mem _ hx))
    unfold dhtAnswers
    split
    · rename_i hx; exact absurd hx (checkedKey_calm hg (fun r => validGateway_calm) id)
    · exact ih found
    · split
      · split
        · rename_i hx; exact absurd hx (hnp m)
        · exact ih found
        · rename_i cid nonce fd offers funded hd
          obtain ⟨l', hl'⟩ := checkOffers_panic (E := E) (fun o ho => checkOffer_calm hp (h (id, m) (List.mem_cons_self ..) _ _ _ _ _ hd o ho))
          rw [hl']
          exact ih _
      · exact ih found

theorem collect_calm {E : Env Sig} (hg : HaveKeys E.gateway) {limit : Int} : ∀ (l : List (Id × Msg)) (added : Nat), (added : Int) ≤ limit →
    collect E limit added l ≠ .panic
  | [], _, _ => by simp [collect]
  | (id, m) :: l, added, h => by
    have hnp : NeverPanics gatewayDHTDiscoverResponseV2 :=
      neverPanics_of gatewayDHTDiscoverResponseV2 (by simp [gatewayDHTDiscoverResponseV2, (np_slice np_bool), (np_slice np_str), np_bool, np_i64, np_str]) (fun _ h => by cases h)
    unfold collect
    split
    · rename_i hx; exact absurd hx (checkedKey_calm hg (fun r => validGateway_calm) id)
    · exact collect_calm hg l added h
    · split
      · split
        · rename_i hx; exact absurd hx (hnp m)
        · exact collect_calm hg l added h
        · split
          · simp
          · split
            · simp
            · refine bind_ne_panic ?_ (fun ds => ?_)
              · split
                · unfold upTo
                  rw [if_neg (by omega)]
                  simp
                · simp
              · split
                · simp
                · exact bind_ne_panic (collect_calm hg l (added + ds.length) (by omega)) (fun _ => by simp)
      · exact collect_calm hg l added h

section calls
variable {E : Env Sig} {r : Record} (hk : r.signingKey ≠ []) (hu : ∀ n m a, Answered E n r m a → Usable a)
include hk hu

theorem searchStandardV2_calm {c : Client Sig} {cid : Id} {ch : Addr} {v : Voucher Sig} (h : c.payment ≠ none) :
    (searchStandardV2 E c r cid ch v).2.2 ≠ .panic ∧ (searchStandardV2 E c r cid ch v).1.payment ≠ none := by
  unfold searchStandardV2
  dsimp only
  split
  · rename_i hx; exact absurd hx (requestStandardV2_calm hk (hu 0))
  · exact ⟨by simp, h⟩
  · exact ⟨by simp, h⟩
  · obtain ⟨h1, h2⟩ := topupAndPay_calm (E := E) (n := 1) (recipient := String.ofList r.address) (amount := c.settings.searchPrice) h
    split
    · rename_i hx; rw [hx] at h1; exact absurd rfl h1
    · rename_i hx; rw [hx] at h2; exact ⟨by simp, h2⟩
    · rename_i hx
      rw [hx] at h2
      exact ⟨bind_ne_panic (requestStandardV2_calm hk (hu 1)) (fun _ => by simp), h2⟩

theorem searchDhtV2_calm {c : Client Sig} {cid : Id} {num : Int} {ch : Addr} {v : Voucher Sig} (h : c.payment ≠ none) :
    (searchDhtV2 E c r cid num ch v).2.2 ≠ .panic ∧ (searchDhtV2 E c r cid num ch v).1.payment ≠ none := by
  unfold searchDhtV2
  dsimp only
  split
  · rename_i hx; exact absurd hx (requestDhtV2_calm hk (hu 0))
  · exact ⟨by simp, h⟩
  · exact ⟨by simp, h⟩
  · rename_i to _
    obtain ⟨h1, h2⟩ := topupAndPay_calm (E := E) (n := 1) (recipient := String.ofList to) (amount := c.settings.searchPrice) h
    split
    · rename_i hx; rw [hx] at h1; exact absurd rfl h1
    · rename_i hx; rw [hx] at h2; exact ⟨by simp, h2⟩
    · rename_i hx
      rw [hx] at h2
      exact ⟨bind_ne_panic (requestDhtV2_calm hk (hu 1)) (fun _ => by simp), h2⟩

theorem fetchStandardV2_calm (hp : HaveKeys E.provider) {c : Client Sig} {cid : Id} {ds : List (List Char)} {max : Int} (h : c.payment ≠ none) :
    (fetchStandardV2 E c r cid ds max).2.2 ≠ .panic := by
  unfold fetchStandardV2
  obtain ⟨h1, h2⟩ := payFor_calm (E := E) (n := 2) (recipient := String.ofList r.address) (amount := (ds.length * c.settings.offerPrice : Int)) h
  split
  · rename_i hx; rw [hx] at h1; exact absurd rfl h1
  · simp
  · dsimp only
    split
    · rename_i hx; exact absurd hx (requestStandardOffer_calm hk (hu 2)).1
    · simp
    · rename_i hx
      exact takeValid_calm (fun o ho => checkOffer_calm hp ((requestStandardOffer_calm hk (hu 2)).2 _ hx o ho))

theorem fetchDhtV2_calm {c : Client Sig} {cid : Id} {ids : List Id} {dss : List (List (List Char))} (h : c.payment ≠ none) :
    (fetchDhtV2 E c r cid ids dss).2.2 ≠ .panic := by
  unfold fetchDhtV2
  have h' : (paymentMgr E c).payment ≠ none := by
    unfold paymentMgr
    split
    · exact h
    · rename_i hn; exact absurd hn h
  obtain ⟨h1, h2⟩ := payFor_calm (E := E) (n := 2) (recipient := String.ofList r.address) (amount := (((dss.map List.length).sum : Nat) * c.settings.offerPrice : Int)) h'
  split
  · rename_i hx; rw [hx] at h1; exact absurd rfl h1
  · simp
  · exact bind_ne_panic (requestDhtOffer_calm hk (hu 2)) (fun _ => by simp)

end calls

/-- **C75, C112**, partial: with a limit that is not negative, and a gateway whose signed answers are usable, no discovery call crashes.
The registered records must have keys and the client must have a payment manager where it pays.  An answer that is not signed by the
gateway cannot crash the client, whatever is in it. -/
theorem C75_partial (E : Env Sig) (c : Client Sig) (cid gw : Id) (num limit : Int) (hg : HaveKeys E.gateway) (hp : HaveKeys E.provider)
    (hr : ∀ r, ActiveRecord c gw r → r.signingKey ≠ [] ∧ ∀ n m a, Answered E n r m a → Usable a) :
    (findStandard E c cid gw).2 ≠ .panic ∧ (findDht E c cid gw num).2 ≠ .panic ∧
    (c.payment ≠ none → 0 ≤ limit → (findStandardV2 E c cid gw limit).2.2 ≠ .panic) ∧
    ((c.payment ≠ none ∨ E.newPayments ≠ none) → 0 ≤ limit → (findDhtV2 E c cid gw num limit).2.2 ≠ .panic) := by
  unfold ActiveRecord at hr
  refine ⟨?_, ?_, fun hpay hl => ?_, fun hpay hl => ?_⟩
  · unfold findStandard
    split
    · simp
    · rename_i r h
      obtain ⟨hk, hu⟩ := hr r h
      obtain ⟨h1, h2⟩ := requestStandard_calm (n := 0) hk (hu 0) (cid := cid) (nonce := E.nonce 0) (ttl := E.now + c.settings.ttl) (ch := []) (v := [])
      refine bind_calm h1 (fun offers ho => ?_)
      obtain ⟨l, hl⟩ := checkOffers_panic (E := E) (fun o h => checkOffer_calm hp (h2 offers ho o h))
      rw [hl]
      simp
  · unfold findDht
    split
    · simp
    · rename_i r h
      obtain ⟨hk, hu⟩ := hr r h
      obtain ⟨h1, h2⟩ := requestDht_calm (n := 0) hk (hu 0) (cid := cid) (nonce := E.nonce 0) (ttl := E.now + c.settings.ttl) (num := num) (ch := []) (v := [])
      exact bind_calm h1 (fun l hl => dhtAnswers_calm hg hp l [] (h2 l hl))
  · unfold findStandardV2
    split
    · simp
    · rename_i r h
      obtain ⟨hk, hu⟩ := hr r h
      obtain ⟨h1, h2⟩ := payFor_calm (E := E) (n := 0) (recipient := String.ofList r.address) (amount := c.settings.searchPrice) hpay
      split
      · rename_i hx; rw [hx] at h1; exact absurd rfl h1
      · simp
      · rename_i c1 out ch v hx
        rw [hx] at h2
        obtain ⟨h3, h4⟩ := searchStandardV2_calm hk hu (cid := cid) (ch := ch) (v := v) h2
        dsimp only at h3 h4
        split
        · rename_i hx; rw [hx] at h3; exact absurd rfl h3
        · simp
        · rename_i c2 out1 digests hx
          rw [hx] at h4
          split
          · simp
          · rw [take_of_limit _ _ hl]
            exact fetchStandardV2_calm hk hu hp h4
  · unfold findDhtV2
    split
    · simp
    · rename_i r h
      obtain ⟨hk, hu⟩ := hr r h
      have hpay' : (paymentMgr E c).payment ≠ none := by
        unfold paymentMgr
        split
        · rename_i hs; rw [hs]; simp
        · rename_i hn
          rcases hpay with h | h
          · exact absurd hn h
          · exact h
      obtain ⟨h1, h2⟩ := payFor_calm (E := E) (n := 0) (recipient := String.ofList r.address) (amount := num * defaultSearchPrice) hpay'
      split
      · rename_i hx; rw [hx] at h1; exact absurd rfl h1
      · simp
      · rename_i c1 out ch v hx
        rw [hx] at h2
        obtain ⟨h3, h4⟩ := searchDhtV2_calm hk hu (cid := cid) (num := num) (ch := ch) (v := v) h2
        dsimp only at h3 h4
        split
        · rename_i hx; rw [hx] at h3; exact absurd rfl h3
        · simp
        · rename_i c2 out1 contacted hx
          rw [hx] at h4
          split
          · rename_i hx; exact absurd hx (collect_calm hg contacted 0 (by simpa using hl))
          · simp
          · simp
          · exact fetchDhtV2_calm hk hu h4

/-! ## negative limits -/

/-- **C75 is false** of `FindOffersStandardDiscoveryV2`: with a negative limit every answer to the search that lists a digest crashes the
client, after it has paid. -/
theorem C75_standardV2_refuted (E : Env Sig) (hpr : ProtocolOk E.pr) (c : Client Sig) (cid gw : Id) (hcid : cid.length = 32) (max : Int) (hmax : max < 0)
    (hn0 : inI64 (E.nonce 0)) (httl : inI64 (E.now + c.settings.ttl)) (r : Record) (hr : ActiveRecord c gw r)
    (p p1 : Payment.Mgr Sig) (hp : c.payment = some p) (ch : Addr) (v : Voucher Sig)
    (hpay : Payment.pay E.signVoucher p (String.ofList r.address) 0 c.settings.searchPrice = (p1, .paid ch v))
    (digests : List (List Char)) (hne : digests ≠ []) (found : Bool) (funded : List Bool) (x : List Char)
    (hsearch : ∀ m, m.type = (clientStandardDiscoverRequestV2).code →
      decode clientStandardDiscoverRequestV2 m = .ok (some cid, E.nonce 0, E.now + c.settings.ttl, ch.toList, E.showVoucher v) →
      ∃ a, Answered E 0 r m a ∧ decode clientStandardDiscoverResponseV2 a = .ok (some cid, E.nonce 0, found, digests, funded, false, x)) :
    (findStandardV2 E c cid gw max).2.2 = .panic ∧ payments (findStandardV2 E c cid gw max).2.1 = [(String.ofList r.address, c.settings.searchPrice)] := by
  obtain ⟨m, hm, ht, -, -, hd⟩ := C30_clientStandardDiscoverRequestV2 E.pr hpr (some cid) (E.nonce 0) (E.now + c.settings.ttl) ch.toList (E.showVoucher v)
    ⟨cid, rfl, hcid⟩ hn0 httl
  obtain ⟨a, ha, had⟩ := hsearch m ht (hd m.signature).2
  have hreq : requestStandardV2 E 0 r cid (E.nonce 0) (E.now + c.settings.ttl) ch.toList (E.showVoucher v) = ([.asked r.netClient m], .ok (digests, false)) := by
    unfold requestStandardV2
    dsimp only
    rw [hm, ask_answered ha]
    simp only [Res.bind_ok, had, deref, ne_eq, not_true_eq_false, if_false, Bool.false_eq_true]
  have hs : searchStandardV2 E { c with payment := some p1 } r cid ch v = ({ c with payment := some p1 }, [.asked r.netClient m], .ok digests) := by
    unfold searchStandardV2
    dsimp only
    rw [hreq]
  have hl : digests.length ≠ 0 := fun h => hne (List.eq_nil_of_length_eq_zero h)
  unfold findStandardV2
  rw [show mget c.active (Ids.toStr gw) = some r from hr]
  dsimp only
  rw [payFor_funded hp hpay]
  dsimp only
  rw [hs]
  dsimp only
  rw [if_neg hl, if_pos (by omega), show upTo max digests = .panic from if_pos hmax]
  exact ⟨rfl, rfl⟩

/-- **C75 is false** of `FindOffersDHTDiscoveryV2` too: with a negative limit it crashes if the first gateway contacted has anything. -/
theorem C75_dhtV2_refuted (E : Env Sig) (hpr : ProtocolOk E.pr) (c : Client Sig) (cid gw : Id) (hcid : cid.length = 32) (num : Int) (hnum : inI64 num)
    (limit : Int) (hlimit : limit < 0) (hn0 : inI64 (E.nonce 0)) (httl : inI64 (E.now + c.settings.ttl)) (r : Record) (hr : ActiveRecord c gw r)
    (p p1 : Payment.Mgr Sig) (hp : c.payment = some p) (ch : Addr) (v : Voucher Sig)
    (hpay : Payment.pay E.signVoucher p (String.ofList r.address) 0 (num * defaultSearchPrice) = (p1, .paid ch v))
    (id : Id) (answer : Msg) (contacted : List (Id × Msg)) (missed : List Id) (x : List Char)
    (hsearch : ∀ m, m.type = (clientDHTDiscoverRequestV2).code →
      decode clientDHTDiscoverRequestV2 m = .ok (some cid, E.nonce 0, E.now + c.settings.ttl, num, false, ch.toList, E.showVoucher v) →
      ∃ a, Answered E 0 r m a ∧ decode clientDHTDiscoverResponseV2 a =
        .ok (id :: contacted.map (·.1), answer :: contacted.map (·.2), missed, E.nonce 0, false, x))
    (hv : Vouches E id answer) (cid' : Option Id) (nonce' : Int) (digests : List (List Char)) (funded : List Bool) (x' : List Char)
    (hd : decode gatewayDHTDiscoverResponseV2 answer = .ok (cid', nonce', true, digests, funded, false, x')) :
    (findDhtV2 E c cid gw num limit).2.2 = .panic ∧ payments (findDhtV2 E c cid gw num limit).2.1 = [(String.ofList r.address, num * defaultSearchPrice)] := by
  obtain ⟨m, hm, ht, -, -, hdm⟩ := C30_clientDHTDiscoverRequestV2 E.pr hpr (some cid) (E.nonce 0) (E.now + c.settings.ttl) num false ch.toList (E.showVoucher v)
    ⟨cid, rfl, hcid⟩ hn0 httl hnum
  obtain ⟨a, ha, had⟩ := hsearch m ht (hdm m.signature).2
  have hreq : requestDhtV2 E 0 r cid (E.nonce 0) (E.now + c.settings.ttl) num ch.toList (E.showVoucher v) =
      ([.asked r.netClient m], .ok ((id, answer) :: contacted, none)) := by
    unfold requestDhtV2
    dsimp only
    rw [hm, ask_answered ha]
    simp only [Res.bind_ok, had, ne_eq, not_true_eq_false, if_false, Bool.false_eq_true, List.length_map, List.length_cons]
    rw [List.zip_cons_cons, List.zip_map', List.map_id']
  have hs : searchDhtV2 E { c with payment := some p1 } r cid num ch v = ({ c with payment := some p1 }, [.asked r.netClient m], .ok ((id, answer) :: contacted)) := by
    unfold searchDhtV2
    dsimp only
    rw [hreq]
  have hpm : paymentMgr E c = c := by
    unfold paymentMgr
    rw [hp]
  obtain ⟨k, hk, hver⟩ := checkedKey_vouches hv
  have hcol : collect E limit 0 ((id, answer) :: contacted) = .panic := by
    unfold collect
    rw [hk]
    dsimp only
    rw [if_pos hver, hd]
    simp only [Bool.false_eq_true, if_false, Bool.not_true]
    rw [if_pos (by omega), show upTo (limit - ((0 : Nat) : Int)) digests = .panic from if_pos (by omega)]
    rfl
  unfold findDhtV2
  rw [show mget c.active (Ids.toStr gw) = some r from hr]
  dsimp only
  rw [hpm, payFor_funded hp hpay]
  dsimp only
  rw [hs]
  dsimp only
  rw [hcol]
  exact ⟨rfl, rfl⟩

/-- **C75 is false** without a payment manager: `FindOffersStandardDiscoveryV2` does not set one up and crashes, with any limit, for every
active gateway. -/
theorem C75_unpaid_refuted (E : Env Sig) (c : Client Sig) (cid gw : Id) (max : Int) (r : Record) (hr : ActiveRecord c gw r) (hp : c.payment = none) :
    (findStandardV2 E c cid gw max).2.2 = .panic := by
  unfold findStandardV2
  rw [show mget c.active (Ids.toStr gw) = some r from hr]
  dsimp only
  unfold payFor
  rw [hp]

/-! ## answers that crash the client -/

/-- A message with this body, signed. -/
theorem signed_body {P : Crypto.Prims} (hP : Crypto.Correct P) {kp pk : Crypto.KeyPair} (hk : Crypto.PrivateKey kp) (hpk : pk.alg = Crypto.sigAlg)
    (hpub : Crypto.publicPart P pk = Crypto.publicPart P kp) {v : Crypto.KeyVersion} (hs : ∀ b, (Crypto.signMessage P kp v b).isSome) {α : Type} (codec : Codec α)
    (fs : List (String × Json)) : ∃ a, Crypto.verifyMessage P pk a.signature (Message.toSign a) = some true ∧
      decode codec a = (decFields codec.schema fs >>= codec.ofWire) ∧ (inI32 codec.code → Message.InRange a) := by
  obtain ⟨sig, h⟩ := Option.isSome_iff_exists.1 (hs (Message.toSign (Message.create Message.defaultProtocol codec.code (some (Message.jsonText (.obj fs))))))
  have hsign : Message.sign P kp v (Message.create Message.defaultProtocol codec.code (some (Message.jsonText (.obj fs)))) =
      ({ Message.create Message.defaultProtocol codec.code (some (Message.jsonText (.obj fs))) with signature := sig }, true) := by
    unfold Message.sign
    rw [h]
  exact ⟨_, Gateway.verify_snd.1 (Message.C27_signed_verifies P hP kp pk v hk ⟨hpk, hpub⟩ _ _ hsign).1, decode_of_fields codec _ fs rfl rfl,
    fun hc => ⟨hc, defaultProtocolOk.1, defaultProtocolOk.2⟩⟩

/-- **C112 is false**: whoever holds the key of a gateway can make one answer that crashes every client which asks for offers, in every call
of `FindOffersStandardDiscovery`; and one for `FindOffersDHTDiscovery`; and one that crashes `AddActiveGateways`. -/
theorem C112_refuted (P : Crypto.Prims) (hP : Crypto.Correct P) (kp pk : Crypto.KeyPair) (hk : Crypto.PrivateKey kp) (hpk : pk.alg = Crypto.sigAlg)
    (hpub : Crypto.publicPart P pk = Crypto.publicPart P kp) (v : Crypto.KeyVersion) (hs : ∀ b, (Crypto.signMessage P kp v b).isSome) :
    (∃ a, ∀ (E : Env Sig) (c : Client Sig) (cid gw : Id) (r : Record), E.P = P → ActiveRecord c gw r → Crypto.decodePublicKey r.signingKey = .ok pk →
      (∀ m, E.exchange 0 r.netClient m = some a) → (findStandard E c cid gw).2 = .panic) ∧
    (∃ a, ∀ (E : Env Sig) (c : Client Sig) (cid gw : Id) (num : Int) (r : Record), E.P = P → ActiveRecord c gw r → Crypto.decodePublicKey r.signingKey = .ok pk →
      (∀ m, E.exchange 0 r.netClient m = some a) → (findDht E c cid gw num).2 = .panic) ∧
    (∃ a, ∀ (E : Env Sig) (c : Client Sig) (gw : Id) (ids : List (Option Id)) (r : Record), E.P = P → mget c.active (Ids.toStr gw) = none →
      mget c.toUse (Ids.toStr gw) = some r → (E.challenge gw).length = 32 → Crypto.decodePublicKey r.signingKey = .ok pk →
      (∀ m, E.exchange 0 r.netClient m = some a) → (step E c (.addActive (some gw :: ids))).2.2 = none) := by
  refine ⟨?_, ?_, ?_⟩
  · obtain ⟨a, h1, h2, -⟩ := signed_body hP hk hpk hpub hs clientStandardDiscoverResponse [("piece_cid", .str "zz".toList)]
    refine ⟨a, fun E c cid gw r hE hr hkey hex => ?_⟩
    have hd : decode clientStandardDiscoverResponse a = .ok (none, 0, false, [], []) := h2.trans rfl
    obtain ⟨m, hm⟩ : ∃ m, encode clientStandardDiscoverRequest E.pr (some cid, E.nonce 0, E.now + c.settings.ttl, [], []) = .ok m := ⟨_, rfl⟩
    have ha : Answered E 0 r m a := ⟨hex m, pk, hkey, by rw [hE]; exact h1⟩
    unfold findStandard
    rw [show mget c.active (Ids.toStr gw) = some r from hr]
    dsimp only
    unfold requestStandard
    dsimp only
    rw [hm, ask_answered ha]
    simp only [Res.bind_ok, hd, deref, Res.bind_panic]
  · obtain ⟨a, h1, h2, -⟩ := signed_body hP hk hpk hpub hs clientDHTDiscoverResponse [("contacted_gateways", .arr [.str "zz".toList])]
    refine ⟨a, fun E c cid gw num r hE hr hkey hex => ?_⟩
    have hd : decode clientDHTDiscoverResponse a = .panic := h2.trans rfl
    obtain ⟨m, hm⟩ : ∃ m, encode clientDHTDiscoverRequest E.pr (some cid, E.nonce 0, E.now + c.settings.ttl, num, false, [], []) = .ok m := ⟨_, rfl⟩
    have ha : Answered E 0 r m a := ⟨hex m, pk, hkey, by rw [hE]; exact h1⟩
    unfold findDht
    rw [show mget c.active (Ids.toStr gw) = some r from hr]
    dsimp only
    unfold requestDht
    dsimp only
    rw [hm, ask_answered ha]
    simp only [Res.bind_ok, hd, Res.bind_panic]
  · obtain ⟨a, h1, h2, -⟩ := signed_body hP hk hpk hpub hs clientEstablishmentResponse [("gateway_id", .str "zz".toList)]
    refine ⟨a, fun E c gw ids r hE hact huse hch hkey hex => ?_⟩
    have hd : decode clientEstablishmentResponse a = .ok (none, []) := h2.trans rfl
    obtain ⟨m, hm⟩ : ∃ m, encode clientEstablishmentRequest E.pr (some c.settings.clientID, b64Encode (E.challenge gw), E.now + c.settings.ttl) = .ok m := ⟨_, rfl⟩
    have ha : Answered E 0 r m a := ⟨hex m, pk, hkey, by rw [hE]; exact h1⟩
    have hreq : requestEstablishment E 0 r (E.challenge gw) c.settings.clientID (E.now + c.settings.ttl) = ([.asked r.netClient m], .panic) := by
      unfold requestEstablishment
      rw [if_neg (by simp [hch])]
      dsimp only
      rw [hm, ask_answered ha]
      simp only [Res.bind_ok, hd, deref, Res.bind_panic]
    show (addActive E c 0 (some gw :: ids)).2.2 = none
    unfold addActive
    rw [hact]
    dsimp only
    rw [huse]
    dsimp only
    rw [hreq]

/-- **C112 is false** of `FindDHTOfferAck`: a provider can answer with a publish request that crashes the client. -/
theorem C112_ack_refuted (P : Crypto.Prims) (hP : Crypto.Correct P) (H : Merkle.Hash) (kp pk : Crypto.KeyPair) (hk : Crypto.PrivateKey kp) (hpk : pk.alg = Crypto.sigAlg)
    (hpub : Crypto.publicPart P pk = Crypto.publicPart P kp) (v : Crypto.KeyVersion) (hs : ∀ b, (Crypto.signMessage P kp v b).isSome)
    (cid gw : Id) (hcid : cid.length = 32) (hgw : gw.length = 32) :
    ∃ a, ∀ (E : Env Sig) (pid : Id) (r : Record) (g : Record), E.P = P → E.H = H → E.provider pid = some r → CompleteProvider r → Crypto.decodePublicKey r.signingKey = .ok pk →
      E.gateway gw = some g → CompleteGateway g → (∀ m, E.exchange 0 r.netClient m = some a) → (findAck E cid gw pid).2 = .panic := by
  obtain ⟨req, h1, h2, h3⟩ := signed_body hP hk hpk hpub hs (providerPublishDHTOfferRequest H) [("single_offers", .arr [.obj [("cids", .arr [.str "zz".toList])]])]
  have hreq : decode (providerPublishDHTOfferRequest H) req = .panic := h2.trans rfl
  obtain ⟨a0, h4, -, -, -, h5⟩ := C30_clientDHTOfferAckResponse Message.defaultProtocol defaultProtocolOk (some cid) (some gw) true (some req) (some req)
    ⟨cid, rfl, hcid⟩ ⟨gw, rfl, hgw⟩ ⟨req, rfl, h3 (show inI32 302 from ⟨by decide, by decide⟩)⟩ ⟨req, rfl, h3 (show inI32 302 from ⟨by decide, by decide⟩)⟩
  obtain ⟨sig, h⟩ := Option.isSome_iff_exists.1 (hs (Message.toSign a0))
  have hsign : Message.sign P kp v a0 = ({ a0 with signature := sig }, true) := by
    unfold Message.sign
    rw [h]
  refine ⟨{ a0 with signature := sig }, fun E pid r g hE hH hr hc hkey hg hgc hex => ?_⟩
  have hver := Gateway.verify_snd.1 (Message.C27_signed_verifies P hP kp pk v hk ⟨hpk, hpub⟩ _ _ hsign).1
  have hd := (h5 sig).2
  obtain ⟨m, hm⟩ : ∃ m, encode clientDHTOfferAckRequest E.pr (some cid, some gw) = .ok m := ⟨_, rfl⟩
  have ha : Answered E 0 r m { a0 with signature := sig } := ⟨hex m, pk, hkey, by rw [hE]; exact hver⟩
  have hshown : (requestAck E 0 r cid gw).2 = .ok (true, req, req) := by
    unfold requestAck
    dsimp only
    rw [hm, ask_answered ha]
    simp only [Res.bind_ok, hd, deref]
    rfl
  obtain ⟨gk, hgk⟩ := hgc.2.2.2.2.2.2.2.2
  have hck : checkedKey E.gateway validGateway gw = .ok gk := by
    unfold checkedKey
    rw [hg]
    dsimp only
    rw [(validGateway_iff g).2 hgc]
    exact hgk
  unfold findAck
  rw [hr]
  dsimp only
  rw [(validProvider_iff r).2 hc]
  dsimp only
  rw [hshown]
  simp only [Res.bind_ok, Bool.not_true, Bool.false_eq_true, if_false, hck, hkey]
  rw [if_pos (by rw [hE]; exact Gateway.verify_snd.2 h1), hH, hreq]
  rfl

/-! ## examples -/

theorem exMsg_other {α β : Type} {codec : Codec α} {a : α} (h : Delivers codec Message.defaultProtocol a) (other : Codec β) (ht : codec.code ≠ other.code) :
    decode other (exMsg codec a) = .err := by
  have h1 := (Gateway.decode_inv (exMsg_decode h)).1
  unfold decode
  rw [if_pos (by rw [h1]; exact ht)]

/-- The answer of `exStandard` to the search, of any gateway, is usable; so no call crashes whatever the client asks, however it is paid. -/
theorem exUsable : Usable (exMsg clientStandardDiscoverResponseV2 (some (exId 2), 7, true, [['d'], ['e'], ['f']], [false, false, false], false, [])) := by
  have hdel := C30_clientStandardDiscoverResponseV2 Message.defaultProtocol defaultProtocolOk (some (exId 2)) 7 true [['d'], ['e'], ['f']] [false, false, false] false []
    (exIdOk 2) ⟨by decide, by decide⟩
  refine ⟨?_, ?_, ?_, ⟨?_, ?_⟩, ?_, ?_⟩
  · intro cid nonce found offers funded h
    rw [exMsg_other hdel _ (by decide)] at h
    cases h
  · intro cid nonce found digests funded required ch h
    rw [exMsg_decode hdel] at h
    simp only [Res.ok.injEq, Prod.mk.injEq] at h
    rw [← h.1]
    simp
  · intro cid nonce found offers funded required ch h
    rw [exMsg_other hdel _ (by decide)] at h
    cases h
  · rw [exMsg_other hdel _ (by decide)]
    simp
  · intro ids answers missed nonce required ch h
    rw [exMsg_other hdel _ (by decide)] at h
    cases h
  · rw [exMsg_other hdel _ (by decide)]
    simp
  · rw [exMsg_other hdel _ (by decide)]
    simp

theorem exEnv_gatewayKeys : HaveKeys exEnv.gateway := by
  intro id r h
  simp only [exEnv] at h
  split at h
  · cases h
    exact ⟨by decide +kernel, by decide +kernel⟩
  · cases h

example (cid gw : Id) (num limit : Int) (hl : 0 ≤ limit) :
    (findStandardV2 (exAnswering clientStandardDiscoverResponseV2 (some (exId 2), 7, true, [['d'], ['e'], ['f']], [false, false, false], false, [])) exClient cid gw limit).2.2 ≠ .panic :=
  (C75_partial (exAnswering clientStandardDiscoverResponseV2 _) exClient cid gw num limit exEnv_gatewayKeys exEnv_keys (fun r hr => by
    unfold ActiveRecord at hr
    have : r = exRecord := by
      unfold exClient at hr
      simp only [mget] at hr
      split at hr
      · exact (Option.some.inj hr).symm
      · cases hr
    rw [this]
    refine ⟨by decide +kernel, fun n m a h => ?_⟩
    obtain ⟨h1, -⟩ := h
    cases Option.some.inj h1
    exact exUsable)).2.2.1 (by simp [exClient]) hl

/-- The same search and payment that `exStandard_returns` shows to succeed with the limit 2. -/
example : (findStandardV2 exStandard exClient (exId 2) (exId 1) (-1)).2.2 = .panic ∧
    payments (findStandardV2 exStandard exClient (exId 2) (exId 1) (-1)).2.1 = [("p", 3)] := by
  have hdel := C30_clientStandardDiscoverResponseV2 Message.defaultProtocol defaultProtocolOk (some (exId 2)) 7 true [['d'], ['e'], ['f']] [false, false, false] false []
    (exIdOk 2) ⟨by decide, by decide⟩
  obtain ⟨v, hv⟩ := exMgr_pay 3 (by decide)
  exact C75_standardV2_refuted exStandard defaultProtocolOk exClient (exId 2) (exId 1) (Merkle.exId_proper 2) (-1) (by decide) ⟨by decide, by decide⟩ ⟨by decide, by decide⟩
    exRecord exClient_active exMgr _ rfl "c" v hv [['d'], ['e'], ['f']] (by decide) true [false, false, false] []
    (fun m _ _ => ⟨_, exAnswers_answered hdel _ 0 m rfl, exMsg_decode hdel⟩)

example : (findDhtV2 exDhtV2 exClient (exId 2) (exId 1) 1 (-1)).2.2 = .panic ∧
    payments (findDhtV2 exDhtV2 exClient (exId 2) (exId 1) 1 (-1)).2.1 = [("p", 1 * defaultSearchPrice)] := by
  have hids : ∀ n, IdsOk [exId n] := fun n i hi => by rw [List.mem_singleton.1 hi]; exact Merkle.exId_proper n
  have hdel := C30_gatewayDHTDiscoverResponseV2 Message.defaultProtocol defaultProtocolOk (some (exId 2)) 7 true [['d'], ['e']] [] false [] (exIdOk 2) ⟨by decide, by decide⟩
  have hdel3 := C30_clientDHTDiscoverResponseV2 Message.defaultProtocol defaultProtocolOk [exId 1] [exV2Answer] [exId 3] 7 false []
    (hids 1) (fun m hm => by rw [List.mem_singleton.1 hm]; exact Provider.exMsg_range ⟨by decide, by decide⟩ _) (hids 3) ⟨by decide, by decide⟩
  obtain ⟨v, hv⟩ := exMgr_pay (1 * defaultSearchPrice) (by decide)
  exact C75_dhtV2_refuted exDhtV2 defaultProtocolOk exClient (exId 2) (exId 1) (Merkle.exId_proper 2) 1 ⟨by decide, by decide⟩ (-1) (by decide) ⟨by decide, by decide⟩
    ⟨by decide, by decide⟩ exRecord exClient_active exMgr _ rfl "c" v hv (exId 1) exV2Answer [] [exId 3] []
    (fun m _ _ => ⟨_, exAnswers_answered hdel3 _ 0 m rfl, exMsg_decode hdel3⟩) (exVouches hdel _) _ _ _ _ _ (exMsg_decode hdel)

example : (findStandardV2 exStandard { exClient with payment := none } (exId 2) (exId 1) 2).2.2 = .panic :=
  C75_unpaid_refuted _ _ _ _ _ exRecord exClient_active rfl

example : ∃ E : Env Unit, (findStandard E exClient (exId 2) (exId 1)).2 = .panic := by
  obtain ⟨⟨a, h⟩, -⟩ := C112_refuted (Sig := Unit) Crypto.toy Crypto.toy_correct Offer.exKey Gateway.exPub Offer.exKey_private rfl (by decide +kernel) 1 Provider.exKey_signs
  exact ⟨{ exEnv with exchange := fun _ _ _ => some a }, h _ _ _ _ exRecord rfl exClient_active exRecord_key (fun _ => rfl)⟩

example : ∃ E : Env Unit, (findDht E exClient (exId 2) (exId 1) 4).2 = .panic := by
  obtain ⟨-, ⟨a, h⟩, -⟩ := C112_refuted (Sig := Unit) Crypto.toy Crypto.toy_correct Offer.exKey Gateway.exPub Offer.exKey_private rfl (by decide +kernel) 1 Provider.exKey_signs
  exact ⟨{ exEnv with exchange := fun _ _ _ => some a }, h _ _ _ _ _ exRecord rfl exClient_active exRecord_key (fun _ => rfl)⟩

example : ∃ E : Env Unit, (findAck E (exId 2) (exId 1) (exId 9)).2 = .panic := by
  obtain ⟨a, h⟩ := C112_ack_refuted (Sig := Unit) Crypto.toy Crypto.toy_correct exEnv.H Offer.exKey Gateway.exPub Offer.exKey_private rfl (by decide +kernel) 1 Provider.exKey_signs
    (exId 2) (exId 1) (Merkle.exId_proper 2) (Merkle.exId_proper 1)
  exact ⟨{ exEnv with exchange := fun _ _ _ => some a }, h _ (exId 9) exRecord exRecord rfl rfl rfl exRecord_completeProvider exRecord_key rfl exRecord_complete (fun _ => rfl)⟩

end FcRetrieval.Client
