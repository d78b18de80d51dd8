import Verif.Model.SqlConc
import Verif.Spec.SqlOffer
/-!
# Specification vocabulary: searches that overlap with additions
-/

namespace FcRetrieval.SqlOffer.Conc
open FcRetrieval.Ids (Id Proper position)
open FcRetrieval.Merkle (Hash)
open FcRetrieval.Offer (CidOffer terms)

/-- The offers that are being added. -/
def inserted : List Call → List CidOffer
  | [] => []
  | .insert o :: calls => o :: inserted calls
  | .ask _ :: calls => inserted calls

/-- The identifiers in the search have 32 bytes. -/
def Query.proper : Query → Prop
  | .byCid c _ _ => Proper c
  | .range a b _ _ _ => Proper a ∧ Proper b
  | .byDigest _ _ _ => True

/-- The CID is one that the search looks for. -/
def Query.wants : Query → Id → Prop
  | .byCid c _ _, x => x = c
  | .range a b _ _ _, x => position a ≤ position x ∧ position x ≤ position b
  | .byDigest _ _ _, _ => False

/-- An offer of this expiry is good at the time of the search. -/
def Query.live : Query → Int → Prop
  | .byCid _ off now, e => now - off < e ∧ e ≤ 253402300799
  | .range _ _ _ off now, e => now - off < e ∧ e ≤ 253402300799
  | .byDigest _ off now, e => now - off < e ∧ e ≤ 253402300799

/-- The clock shows a time after 1970. -/
def Query.clock : Query → Prop
  | .byCid _ off now => 0 ≤ now - off
  | .range _ _ _ off now => 0 ≤ now - off
  | .byDigest _ off now => 0 ≤ now - off

/-- The search goes by content, and asks for all offers there are. -/
def Query.unlimited : Query → Prop
  | .byCid _ _ _ => True
  | .range _ _ max _ _ => max ≤ 0
  | .byDigest _ _ _ => False

/-- The search goes by content. -/
def Query.byContent : Query → Bool
  | .byDigest _ _ _ => false
  | _ => true

/-- `x` is the offer `o`, perhaps with fewer CIDs (and then another Merkle root). -/
structure PartOf (H : Hash) (x o : CidOffer) : Prop where
  cids : x.cids.Sublist o.cids
  some : x.cids ≠ []
  root : Merkle.rootHex H x.cids = .some x.merkleRoot
  same : x.providerID = o.providerID ∧ x.price = o.price ∧ x.expiry = o.expiry ∧ x.qos = o.qos ∧ x.signature = o.signature

/-- The call has returned. -/
def Th.finished : Th → Bool
  | .inserting [] _ => true
  | .answered _ => true
  | .panicked => true
  | _ => false

end FcRetrieval.SqlOffer.Conc
