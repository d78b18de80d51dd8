import Verif.Model.Offer
import Verif.Spec.Ids
import Verif.Spec.Merkle
import Verif.Spec.Crypto
/-!
# Specification vocabulary for offers
-/

namespace FcRetrieval.Offer
open FcRetrieval.Ids (Id Proper)
open FcRetrieval.Merkle (Hash)

/-- Provider, CIDs in order, price, expiry and quality of service. -/
def terms (o : CidOffer) : Option Id × List Id × Nat × Int × Nat := (o.providerID, o.cids, o.price, o.expiry, o.qos)

/-- The fields of an offer are in the range of their types, with 32-byte identifiers and a provider. -/
def InRange (o : CidOffer) : Prop :=
  (∃ p, o.providerID = some p ∧ Proper p) ∧ (∀ c ∈ o.cids, Proper c) ∧ o.price < 2 ^ 64 ∧ o.qos < 2 ^ 64 ∧
  -(2 ^ 63) ≤ o.expiry ∧ o.expiry < 2 ^ 63

/-- An offer as built by the constructor: in range, at least one CID, and the Merkle root of the CIDs. -/
def Built (H : Hash) (o : CidOffer) : Prop := InRange o ∧ o.cids ≠ [] ∧ Merkle.rootHex H o.cids = some o.merkleRoot

/-- What is signed. -/
def signedTerms (o : CidOffer) : Option Id × List Char × Nat × Int × Nat :=
  (o.providerID, o.merkleRoot, o.price, o.expiry, o.qos)
/-- What is signed, of a sub-offer. -/
def subSignedTerms (o : SubOffer) : Option Id × List Char × Nat × Int × Nat :=
  (o.providerID, o.merkleRoot, o.price, o.expiry, o.qos)

/-- The fields of a sub-offer are in the range of their types; the proof can be encoded. -/
def SubInRange (o : SubOffer) : Prop :=
  (∃ p, o.providerID = some p ∧ Proper p) ∧ (∃ c, o.subCID = some c ∧ Proper c) ∧ o.price < 2 ^ 64 ∧ o.qos < 2 ^ 64 ∧
  -(2 ^ 63) ≤ o.expiry ∧ o.expiry < 2 ^ 63 ∧
  (∀ l, o.merkleProof.index = some l → ∀ n ∈ l, -(2 ^ 63) ≤ n ∧ n < 2 ^ 63) ∧
  (render (Merkle.pathJson o.merkleProof.path)).length < 2 ^ 32 ∧ (render (Merkle.indexJson o.merkleProof.index)).length < 2 ^ 32

end FcRetrieval.Offer
