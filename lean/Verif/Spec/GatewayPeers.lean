import Verif.Spec.Gateway
/-!
# Specification vocabulary: what a gateway owes the peers that it asks for offers
-/

namespace FcRetrieval.Gateway
open FcRetrieval.Ids (Id)
open FcRetrieval.Payment (Addr)

/-- A peer to ask: its identifier, its record in the register, the digests of the offers asked of it. -/
structure Peer where
  id : Id
  record : Register.Record
  digests : List (List Char)

/-- The address at which the peer is paid. -/
def Peer.address (p : Peer) : Addr := String.ofList p.record.address

/-- What the holder of an address is owed for the offers asked of these peers. -/
def owed (price : Int) (a : Addr) : List Peer → Int
  | [] => 0
  | p :: ps => (if p.address = a then (p.digests.length : Int) * price else 0) + owed price a ps

end FcRetrieval.Gateway
