import Verif.Lemmas.ClientDiscover
/-! When the client does not panic. -/
set_option linter.unusedSimpArgs false

namespace FcRetrieval.Client
open FcRetrieval.Ids (Id)
open FcRetrieval.Message (Msg)
open FcRetrieval.Offer (SubOffer)
open FcRetrieval.Register (Record)
open FcRetrieval.Wire (encode decode)
open FcRetrieval.Codecs

variable {Sig : Type}

theorem hexDecode_nonempty {s : List Char} (h : s ≠ []) : hexDecode s ≠ some [] := by
  match s with
  | [] => exact absurd rfl h
  | [_] => simp [hexDecode]
  | c :: d :: cs =>
    unfold hexDecode
    split <;> simp

theorem decodePublicKey_calm {s : List Char} (h : s ≠ []) : Crypto.decodePublicKey s ≠ .panic := by
  unfold Crypto.decodePublicKey
  split
  · simp
  · rename_i he
    exact absurd he (hexDecode_nonempty h)
  · unfold Crypto.decodeSecPublic
    split
    · split <;> simp
    · simp

theorem validGateway_calm {r : Record} (h : r.rootSigningKey ≠ [] ∧ r.signingKey ≠ []) : validGateway r ≠ .panic := by
  unfold validGateway
  split
  · simp
  · split
    · rename_i he
      exact absurd he (decodePublicKey_calm h.1)
    · simp
    · split
      · rename_i he
        exact absurd he (decodePublicKey_calm h.2)
      · simp
      · simp

theorem validProvider_calm {r : Record} (h : r.rootSigningKey ≠ [] ∧ r.signingKey ≠ []) : validProvider r ≠ .panic := by
  unfold validProvider
  split
  · simp
  · split
    · rename_i he
      exact absurd he (decodePublicKey_calm h.1)
    · simp
    · split
      · rename_i he
        exact absurd he (decodePublicKey_calm h.2)
      · simp
      · simp

theorem checkedKey_calm {look : Id → Option Record} (h : HaveKeys look) {valid : Record → Res Bool}
    (hv : ∀ r, r.rootSigningKey ≠ [] ∧ r.signingKey ≠ [] → valid r ≠ .panic) (id : Id) : checkedKey look valid id ≠ .panic := by
  unfold checkedKey
  split
  · simp
  · rename_i r hr
    split
    · rename_i he
      exact absurd he (hv r (h id r hr))
    · exact decodePublicKey_calm (h id r hr).2
    · simp

theorem verifyLoop_calm (H : Merkle.Hash) : ∀ {ps : List (Option Bytes)} {is : List Int} {cur : Bytes}, ps.length ≤ is.length →
    Merkle.verifyLoop H ps is cur ≠ .panic := by
  intro ps
  induction ps with
  | nil => intro is cur _; simp [Merkle.verifyLoop]
  | cons p ps ih =>
    intro is cur h
    cases is with
    | nil => simp at h
    | cons i is =>
      unfold Merkle.verifyLoop
      exact ih (by simpa using h)

theorem checkOffer_calm {E : Env Sig} (hk : HaveKeys E.provider) {o : SubOffer} (h : Whole o) : checkOffer E o ≠ .panic := by
  obtain ⟨h1, h2, h3⟩ := h
  cases ho : o.providerID with
  | none => exact absurd ho h1
  | some pid =>
    cases hc : o.subCID with
    | none => exact absurd hc h2
    | some cid =>
      unfold checkOffer
      rw [ho]
      simp only [deref, Res.bind_ok]
      refine Codecs.bind_ne_panic (checkedKey_calm hk (fun r => validProvider_calm) pid) (fun k => ?_)
      refine Codecs.bind_ne_panic ?_ (fun _ => ?_)
      · unfold Offer.subVerify
        rw [ho]
        unfold Offer.toSign
        simp only [Res.bind_ok]
        unfold Offer.checkSig
        split <;> simp
      · unfold Offer.verifyMerkleProof
        split
        · simp
        · simp
        · simp
        · rename_i hp
          rw [hc] at hp
          unfold Merkle.verify at hp
          dsimp only at hp
          split at hp
          · cases hp
          · cases hp
          · rename_i he
            exact absurd he (verifyLoop_calm E.H h3)

open Classical in
/-- The offers that pass, up to `max`. -/
theorem takeValid_eq {E : Env Sig} {max : Int} : ∀ {os : List SubOffer} {n : Nat}, (n : Int) < max → (∀ o ∈ os, checkOffer E o ≠ .panic) →
    takeValid E max n os = .ok ((os.filter (fun o => decide (Verified E o))).take (max - n).toNat) := by
  intro os
  induction os with
  | nil => intro n _ _; simp [takeValid]
  | cons o os ih =>
    intro n hn h
    unfold takeValid
    have hr := fun x hx => h x (List.mem_cons_of_mem _ hx)
    split
    · rename_i hp
      exact absurd hp (h o (List.mem_cons_self ..))
    · rename_i he
      have : ¬ Verified E o := fun hv => by
        have := checkOffer_ok.2 hv
        rw [he] at this
        cases this
      rw [List.filter_cons_of_neg (by simpa using this)]
      exact ih hn hr
    · rename_i he
      have hv : Verified E o := checkOffer_ok.1 he
      rw [List.filter_cons_of_pos (by simpa using hv)]
      split
      · rename_i he
        have : (max - n).toNat = 1 := by omega
        rw [this]
        simp
      · rename_i he
        rw [ih (by omega) hr]
        have : (max - n).toNat = (max - (n + 1 : Nat)).toNat + 1 := by omega
        rw [this, List.take_succ_cons]
        rfl

open Classical in
theorem checkOffers_eq {E : Env Sig} {os : List SubOffer} (h : ∀ o ∈ os, checkOffer E o ≠ .panic) :
    checkOffers E os = .ok (os.filter (fun o => decide (Verified E o))) := by
  induction os with
  | nil => rfl
  | cons o os ih =>
    have ih := ih (fun x hx => h x (List.mem_cons_of_mem _ hx))
    unfold checkOffers
    split
    · rename_i hp
      exact absurd hp (h o (List.mem_cons_self ..))
    · rename_i he
      have : ¬ Verified E o := fun hv => by
        have := checkOffer_ok.2 hv
        rw [he] at this
        cases this
      rw [List.filter_cons_of_neg (by simpa using this)]
      exact ih
    · rename_i he
      have hv : Verified E o := checkOffer_ok.1 he
      rw [List.filter_cons_of_pos (by simpa using hv), ih]
      rfl

end FcRetrieval.Client
