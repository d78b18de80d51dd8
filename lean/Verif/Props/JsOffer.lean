import Verif.Model.JsOffer
import Verif.Props.JsDiscovery
/-!
# C195: the offers of the JavaScript client
-/

set_option linter.unusedSimpArgs false

namespace FcRetrieval.Js
open FcRetrieval.Register (Record)

/-- **C195 (refuted)**, what an offer tells: any two offers tell the same, whatever they hold. -/
theorem C195_told_refuted (a b : SubOffer) :
    a.getProviderID = b.getProviderID ∧ a.getSubCID = b.getSubCID ∧ a.getMerkleRoot = b.getMerkleRoot ∧ a.getMerkleProof = b.getMerkleProof ∧ a.getPrice = b.getPrice ∧
      a.getExpiry = b.getExpiry ∧ a.getQoS = b.getQoS ∧ a.getSignature = b.getSignature :=
  ⟨rfl, rfl, rfl, rfl, rfl, rfl, rfl, rfl⟩

theorem sift_all (register : List Char → Option Record) (r : Record) (hr : register [] = some r) (maxOffers : Int) :
    ∀ l valid : List SubOffer, sift register maxOffers valid l = some (valid ++ l.take (max 1 (maxOffers.toNat - valid.length))) := by
  intro l
  induction l with
  | nil => intro valid; simp [sift]
  | cons o l ih =>
    intro valid
    unfold sift SubOffer.getProviderID SubOffer.verify SubOffer.verifyMerkleProof
    rw [hr]
    simp only [Option.isSome_none, Bool.false_eq_true, if_false, List.length_append, List.length_singleton]
    split
    · rename_i h
      have : max 1 (maxOffers.toNat - valid.length) = 1 := by omega
      rw [this]
      simp
    · rename_i h
      rw [ih]
      have : max 1 (maxOffers.toNat - valid.length) = max 1 (maxOffers.toNat - (valid ++ [o]).length) + 1 := by simp; omega
      rw [this, List.take_succ_cons]
      simp

/-- **C195 (refuted)**, what is checked: with a register that answers, the offers that come first are kept, as many as asked for and at least one, whatever their signatures,
proofs and providers.  Nothing else is looked at. -/
theorem C195_kept_refuted (register : List Char → Option Record) (r : Record) (hr : register [] = some r) (maxOffers : Int) (l : List SubOffer) :
    sift register maxOffers [] l = some (l.take (max 1 maxOffers.toNat)) := by
  have := sift_all register r hr maxOffers l []
  simpa using this

/-- **C195 (partial)**, the number: at most as many are kept as asked for, if at least one is asked for.  Missing: the checks. -/
theorem C195_limit_partial (register : List Char → Option Record) (maxOffers : Int) (h1 : 1 ≤ maxOffers) (l kept : List SubOffer)
    (h : sift register maxOffers [] l = some kept) : (kept.length : Int) ≤ maxOffers ∧ kept <+: l := by
  cases l with
  | nil => cases h; exact ⟨by simp; omega, List.prefix_refl _⟩
  | cons o l =>
    cases hr : register [] with
    | none =>
      unfold sift SubOffer.getProviderID at h
      rw [hr] at h
      cases h
    | some r =>
      rw [C195_kept_refuted register r hr] at h
      cases h
      exact ⟨by rw [List.length_take]; omega, List.take_prefix _ _⟩

/-- Two offers of different providers, neither of them signed; both are kept. -/
example : ∃ l, sift (fun _ => some exGateway) 5 [] [⟨['a'], ['c'], [], .null, 1, 1, 1, []⟩, ⟨['b'], ['d'], [], .null, 2, 2, 2, []⟩] = some l ∧ l.length = 2 ∧
    (l.map (·.price)) = [1, 2] ∧ l.map (·.getPrice) = [42, 42] := by
  rw [C195_kept_refuted _ exGateway rfl]
  exact ⟨_, rfl, rfl, rfl, rfl⟩

end FcRetrieval.Js
