import Verif.Model.JsDiscovery
/-!
# Model of the offers of the JavaScript client

`client-js/src/cidoffer`, and the loop of `FilecoinRetrievalClient.ts` over offers that are instances of these classes.  `JSON.parse` makes no such instances, so that a
discovery does not get that far (`Js.collect`).
-/

namespace FcRetrieval.Js
open FcRetrieval.Register (Record)

/-- cidoffer/subcidoffer.class.ts:5-33: the members and the constructor. -/
structure SubOffer where
  providerID : List Char
  subCID : List Char
  merkleRoot : List Char
  merkleProof : Json
  price : Int
  expiry : Int
  qos : Int
  signature : List Char

/-- cidoffer/subcidoffer.class.ts:36-38 `getProviderID`. -/
def SubOffer.getProviderID (_ : SubOffer) : List Char := []
/-- cidoffer/subcidoffer.class.ts:41-43 `getSubCID`. -/
def SubOffer.getSubCID (_ : SubOffer) : Json := .obj []
/-- cidoffer/subcidoffer.class.ts:46-48 `getMerkleRoot`. -/
def SubOffer.getMerkleRoot (_ : SubOffer) : List Char := ['h', 'e', 'l', 'l', 'o']
/-- cidoffer/subcidoffer.class.ts:51-53 `getMerkleProof`. -/
def SubOffer.getMerkleProof (_ : SubOffer) : Json := .obj []
/-- cidoffer/subcidoffer.class.ts:56-58 `getPrice`. -/
def SubOffer.getPrice (_ : SubOffer) : Int := 42
/-- cidoffer/subcidoffer.class.ts:61-63 `getExpiry`. -/
def SubOffer.getExpiry (_ : SubOffer) : Int := 42
/-- cidoffer/subcidoffer.class.ts:66-68 `getQoS`. -/
def SubOffer.getQoS (_ : SubOffer) : Int := 42
/-- cidoffer/subcidoffer.class.ts:71-73 `getSignature`. -/
def SubOffer.getSignature (_ : SubOffer) : List Char := []

/-- cidoffer/subcidoffer.class.ts:76 `verify`: the error, `none` is `undefined`. -/
def SubOffer.verify (_ : SubOffer) (_pubKey : List Char) : Option (List Char) := none
/-- cidoffer/subcidoffer.class.ts:79 `verifyMerkleProof`. -/
def SubOffer.verifyMerkleProof (_ : SubOffer) : Option (List Char) := none

/-- FilecoinRetrievalClient.ts:300-317: the loop over offers of this class; `register` is `getProviderByID`, `none` an exception.  The second argument is `validOffers`. -/
def sift (register : List Char → Option Record) (maxOffers : Int) (valid : List SubOffer) : List SubOffer → Option (List SubOffer)
  | [] => some valid
  | o :: l =>
    match register o.getProviderID with
    | none => none
    | some provider =>
      if (o.verify provider.signingKey).isSome then sift register maxOffers valid l
      else if o.verifyMerkleProof.isSome then sift register maxOffers valid l
      else if maxOffers ≤ ((valid ++ [o]).length : Int) then some (valid ++ [o])
      else sift register maxOffers (valid ++ [o]) l

end FcRetrieval.Js
