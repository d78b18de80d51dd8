import Verif.Model.ProviderRecords
/-!
# What should be in the records of a provider
-/

namespace FcRetrieval.Provider.Records

/-- The request has just come in. -/
def Job.new : Job → Prop
  | .dht _ _ _ k half => k = 0 ∧ half = false
  | .group _ _ recorded => recorded = false
  | .list _ | .ask _ _ => True
  | .listed _ _ | .asked _ _ _ => False

/-- The request is over. -/
def Job.over : Job → Prop
  | .dht _ _ all k _ => k = all.length
  | .group _ _ recorded => recorded = true
  | .list _ | .ask _ _ => False
  | .listed _ _ | .asked _ _ _ => True

/-- The offers the request publishes to gateway `g`. -/
def Job.toGateway (g : Nat) : Job → List Off
  | .dht g' _ all _ _ => if g' = g then all else []
  | .group g' o _ => if g' = g then [o] else []
  | _ => []

/-- The request publishes a DHT offer for the CID to the gateway, with this acknowledgement. -/
def Job.acksFor (cid g ack : Nat) : Job → Prop
  | .dht g' ack' all _ _ => g' = g ∧ ack' = ack ∧ ∃ o ∈ all, o.cid = cid
  | _ => False

/-- What the admin is told about one gateway at this moment. -/
def shown (s : State) (g : Nat) : List Off := published s.recs [g]

end FcRetrieval.Provider.Records
