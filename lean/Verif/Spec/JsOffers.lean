import Verif.Model.JsDiscovery
import Verif.Spec.JsonGrammar
/-!
# What an answer about offers has to say
-/

namespace FcRetrieval.Js
open FcRetrieval.Crypto (Prims)
open FcRetrieval.JsonGrammar (Whole)
open FcRetrieval.Register (Record)

/-- The text is a message of type 111, and its body, as a text, is an object with this nonce, with these offers, and with a content identifier that
prints as `cid`. -/
def TellsOffers (cid : List Char) (nonce : Int) (offers : Option Json) (text : List Char) : Prop :=
  ∃ fs body gs c, Whole false (.obj fs) text ∧ field "message_type" fs = some (.num 111) ∧ field "message_body" fs = some body ∧
    Whole true (.obj gs) (toText body) ∧ field "pieceCID" gs = some c ∧ toText c = cid ∧ field "nonce" gs = some (.num nonce) ∧ field "subCIDOffers" gs = offers

/-- Under the key of the registration, somebody has signed a text that tells these offers. -/
def SignedOffers (P : Prims) (g : Record) (cid : List Char) (nonce : Int) (offers : Option Json) : Prop :=
  ∃ pk text sig, publicKey g.signingKey = some pk ∧ P.verify pk (P.hash (utf8Bytes text)) sig = true ∧ TellsOffers cid nonce offers text

/-- A content identifier as the client's users make one: an object with a member `id` (cid/cid.interface.ts:1-3), which prints as any object does. -/
def plainCid (id : List Char) : Cid := ⟨.obj [("id", .str id)], toText (.obj [("id", .str id)])⟩

end FcRetrieval.Js
