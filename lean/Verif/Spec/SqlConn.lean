import Verif.Model.SqlConn
import Verif.Spec.SqlOffer
/-!
# Specification vocabulary for C178: what lookups leave behind
-/

namespace FcRetrieval.SqlOffer.Conn
open FcRetrieval.Ids (Id)
open FcRetrieval.Merkle (Hash)
open FcRetrieval.Offer (CidOffer)

/-- The circumstances of a call: the offset of the host's clock from UTC, the time, the order in which rows are returned. -/
structure When where
  off : Int
  now : Int
  order : List OfferRow → List OfferRow

/-- A call of the manager. -/
inductive Op where
  | add (o : CidOffer)
  | byCid (c : Id)
  | range (a b : Id) (max : Int)
  | byDigest (d : Bytes)

/-- What is answered. -/
inductive Out where
  | done (ok : Bool)
  | offers (l : List CidOffer) (found : Bool)
  | one (o : Option CidOffer)
  | panic
  deriving DecidableEq

def Out.ofDone : Res Bool → Out
  | .ok b => .done b
  | _ => .panic

def Out.ofList : Res (List CidOffer × Bool) → Out
  | .ok (l, f) => .offers l f
  | _ => .panic

def Out.ofOne : Res (Option CidOffer) → Out
  | .ok o => .one o
  | _ => .panic

/-- A call on the manager with its connections. -/
def exec (H H512 : Hash) (room : Nat) (s : Store) (w : When) : Op → Store × Out
  | .add o => ((add H512 room s o).1, .ofDone (add H512 room s o).2)
  | .byCid c => ((getOffers H w.order room w.off w.now s c).1, .ofList (getOffers H w.order room w.off w.now s c).2)
  | .range a b max => ((getDhtRange H w.order room w.off w.now s a b max).1, .ofList (getDhtRange H w.order room w.off w.now s a b max).2)
  | .byDigest d => ((getByDigest H w.order room w.off w.now s d).1, .ofOne (getByDigest H w.order room w.off w.now s d).2)

/-- A history of calls. -/
def execAll (H H512 : Hash) (room : Nat) (s : Store) : List (When × Op) → Store × List Out
  | [] => (s, [])
  | (w, op) :: h => ((execAll H H512 room (exec H H512 room s w op).1 h).1, (exec H H512 room s w op).2 :: (execAll H H512 room (exec H H512 room s w op).1 h).2)

/-- The same call in a manager with connections without end: `Model/SqlOffer`. -/
def ideal (H H512 : Hash) (db : DB) (w : When) : Op → DB × Out
  | .add o => match insertOffer H512 (fun _ => false) db o with
    | .ok (db', ok) => (db', .done ok)
    | _ => (db, .panic)
  | .byCid c => (db, .ofList (SqlOffer.getOffers H w.order w.off w.now db c))
  | .range a b max => (db, .ofList (SqlOffer.getDhtRange H w.order w.off w.now db a b max))
  | .byDigest d => (db, .ofOne (SqlOffer.getByDigest H w.order w.off w.now db d))

def idealAll (H H512 : Hash) (db : DB) : List (When × Op) → DB × List Out
  | [] => (db, [])
  | (w, op) :: h => ((idealAll H H512 (ideal H H512 db w op).1 h).1, (ideal H H512 db w op).2 :: (idealAll H H512 (ideal H H512 db w op).1 h).2)

/-- The connections that a call keeps for ever: one for an offer found by its digest, and one for a listing that comes to its limit. -/
def kept : Op → Out → Nat
  | .byDigest _, .one (some _) => 1
  | .range _ _ max, .offers l _ => if max > 0 ∧ (l.length : Int) ≥ max then 1 else 0
  | _, _ => 0

/-- The connections that the calls of a history keep. -/
def keptAll : List (When × Op) → List Out → Nat
  | (_, op) :: h, out :: outs => kept op out + keptAll h outs
  | _, _ => 0

/-- The offers that a history adds. -/
def addsOf (h : List (When × Op)) : List CidOffer := h.filterMap (fun e => match e.2 with | .add o => some o | _ => none)

/-- What a call is answered by a manager that finds nothing and stores nothing. -/
def nothing : Op → Out
  | .add _ => .done false
  | .byCid _ => .offers [] false
  | .range _ _ _ => .offers [] false
  | .byDigest _ => .one none

end FcRetrieval.SqlOffer.Conn
