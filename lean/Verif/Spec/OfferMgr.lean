import Verif.Model.OfferMgr
import Verif.Spec.Offer
import Verif.Spec.Ring
/-!
# Specification vocabulary for the offer manager

What a user should see, said of two plain lists: the DHT offers and the group offers accepted so far.
-/

namespace FcRetrieval.OfferMgr
open FcRetrieval.Ids (Id Proper position)
open FcRetrieval.Merkle (Hash)
open FcRetrieval.Offer (CidOffer terms InRange)
open FcRetrieval.Ring (Fault)

/-- The hash of the digest does not collide on the given offers. -/
def NoCollision (H512 : Hash) (os : List CidOffer) : Prop :=
  ∀ o ∈ os, ∀ o' ∈ os, ∀ b b', Offer.digestInput o = .ok b → Offer.digestInput o' = .ok b' → H512 b = H512 b' → b = b'

/-- The offers accepted and not yet dropped, and the CIDs of all offers given to `AddDHTOffer`. -/
structure Shelf where
  dht : List CidOffer
  group : List CidOffer
  offered : List Id

/-- Adding an offer: one with the same terms is there already, or it has expired, or it is put on the list. -/
def shelve (t : Clock) (acc : List CidOffer) (o : CidOffer) : List CidOffer × Bool :=
  if acc.any (fun o' => decide (terms o' = terms o)) then (acc, true)
  else if expired o t then (acc, false)
  else (acc ++ [o], true)

/-- The unexpired offers of a content. -/
def listing (t : Clock) (acc : List CidOffer) (c : Id) : List CidOffer :=
  acc.filter (fun o => decide (c ∈ o.cids) && !expired o t)

/-- What is left once the expired offers of a content are dropped. -/
def purge (t : Clock) (acc : List CidOffer) (c : Id) : List CidOffer :=
  acc.filter (fun o => !(decide (c ∈ o.cids) && expired o t))

/-- `es` are the CIDs on the clockwise arc from `a` to `b` (both included), each once, clockwise from `a`. -/
def IsArc (offered : List Id) (a b : Id) (es : List Id) : Prop :=
  (∀ c, c ∈ es ↔ c ∈ offered ∧ Ring.cw (position a) (position c) ≤ Ring.cw (position a) (position b)) ∧
  es.Pairwise (fun c d => Ring.cw (position a) (position c) < Ring.cw (position a) (position d))

/-- The listings of the contents one after the other, each in any order. -/
def Listings (t : Clock) (acc : List CidOffer) : List Id → List CidOffer → Prop
  | [], full => full = []
  | c :: cs, full => ∃ l rest, l.Perm (listing t acc c) ∧ Listings t acc cs rest ∧ full = l ++ rest

/-- The effect a limit has. -/
def limit (max : Int) : Nat := if max ≤ 1 then 1 else max.toNat

/-- Calls of the manager. -/
inductive Op where
  | addGroup (o : CidOffer)
  | addDht (o : CidOffer)
  | getGroup (c : Id)
  | getDht (c : Id)
  | getOffers (c : Id)
  | range (a b : Id) (max : Int)
  | byDigest (d : Bytes)

/-- Their results. -/
inductive Out where
  | done (ok : Bool)
  | offers (l : List CidOffer) (found : Bool)
  | one (o : Option CidOffer)
  deriving DecidableEq

/-- What one call at time `t` may answer and do.  With `strict` the CIDs visited by a range listing are those on the arc;
otherwise nothing is said about which ones are visited. -/
def Step (H512 : Hash) (strict : Bool) (t : Clock) (s : Shelf) : Op → Out → Shelf → Prop
  | .addGroup o, out, s' =>
    if o.cids.length ≤ 1 then out = .done false ∧ s' = s
    else out = .done (shelve t s.group o).2 ∧ s' = { s with group := (shelve t s.group o).1 }
  | .addDht o, out, s' =>
    match o.cids with
    | [c] => out = .done (shelve t s.dht o).2 ∧ s' = { s with dht := (shelve t s.dht o).1, offered := c :: s.offered }
    | _ => out = .done false ∧ s' = s
  | .getGroup c, out, s' =>
    ∃ l, l.Perm (listing t s.group c) ∧ out = .offers l (!l.isEmpty) ∧ s' = { s with group := purge t s.group c }
  | .getDht c, out, s' =>
    ∃ l, l.Perm (listing t s.dht c) ∧ out = .offers l (!l.isEmpty) ∧ s' = { s with dht := purge t s.dht c }
  | .getOffers c, out, s' =>
    ∃ l l', l.Perm (listing t s.group c) ∧ l'.Perm (listing t s.dht c) ∧ out = .offers (l ++ l') (!(l ++ l').isEmpty) ∧
      s' = { s with group := purge t s.group c, dht := purge t s.dht c }
  | .range a b max, out, s' =>
    ∃ es full visited found, Listings t s.dht es full ∧ visited <+: es ∧
      out = .offers (full.take (limit max)) found ∧ s' = { s with dht := visited.foldl (purge t) s.dht } ∧
      (strict = true → IsArc s.offered a b es ∧ found = !full.isEmpty)
  | .byDigest d, out, s' =>
    s' = s ∧ ∃ r, out = .one r ∧
      match r with
      | some o => Offer.digest H512 o = .ok d ∧ (o ∈ s.dht ∨ o ∈ s.group ∧ ∀ o' ∈ s.dht, Offer.digest H512 o' ≠ .ok d)
      | none => ∀ o, o ∈ s.dht ∨ o ∈ s.group → Offer.digest H512 o ≠ .ok d

/-- A history with its answers. -/
def Steps (H512 : Hash) (strict : Bool) : Shelf → List (Clock × Op) → List Out → Shelf → Prop
  | s, [], outs, s' => outs = [] ∧ s' = s
  | s, (t, op) :: h, outs, s' => ∃ out rest s1, outs = out :: rest ∧ Step H512 strict t s op out s1 ∧ Steps H512 strict s1 h rest s'

/-- Nothing accepted yet. -/
def noOffers : Shelf := ⟨[], [], []⟩

/-- One call on the model. -/
def exec (H512 : Hash) (order : DigestMap CidOffer → DigestMap CidOffer) (orderE : Storage CidOffer → Storage CidOffer)
    (t : Clock) (m : Mgr CidOffer) : Op → Except Fault (Mgr CidOffer × Out)
  | .addGroup o => do let (m, ok) ← OfferMgr.addGroup H512 id t m o; return (m, .done ok)
  | .addDht o => do let (m, ok) ← OfferMgr.addDht H512 id t m o; return (m, .done ok)
  | .getGroup c => do let (m, l, f) ← OfferMgr.getGroup H512 id order t m c; return (m, .offers l f)
  | .getDht c => do let (m, l, f) ← OfferMgr.getDht H512 id order t m c; return (m, .offers l f)
  | .getOffers c => do let (m, l, f) ← OfferMgr.getOffers H512 id order t m c; return (m, .offers l f)
  | .range a b max => do let (m, l, f) ← OfferMgr.getDhtRange H512 id order t m a b max; return (m, .offers l f)
  | .byDigest d => return (m, .one (OfferMgr.getByDigest orderE m d))

/-- A history of calls on the model. -/
def execAll (H512 : Hash) (order : DigestMap CidOffer → DigestMap CidOffer) (orderE : Storage CidOffer → Storage CidOffer)
    (m : Mgr CidOffer) : List (Clock × Op) → Except Fault (Mgr CidOffer × List Out)
  | [] => .ok (m, [])
  | (t, op) :: h => do
    let (m, out) ← exec H512 order orderE t m op
    let (m, outs) ← execAll H512 order orderE m h
    return (m, out :: outs)

/-- The offer an operation adds. -/
def added : Op → List CidOffer
  | .addGroup o => [o]
  | .addDht o => [o]
  | _ => []

/-- All offers given to the manager in a history. -/
def allAdded (h : List (Clock × Op)) : List CidOffer := h.flatMap (fun e => added e.2)

/-- The identifiers asked for are 32 bytes. -/
def ProperOp : Op → Prop
  | .getGroup c => Proper c
  | .getDht c => Proper c
  | .getOffers c => Proper c
  | .range a b _ => Proper a ∧ Proper b
  | _ => True

/-- The range queries the ring survives: different bounds, neither of which lies before all offered CIDs (counting from
zero), as far as the code needs it. -/
def Safe (offered : List Id) (a b : Id) : Prop :=
  a ≠ b ∧
  ((∀ c ∈ offered, ∀ d ∈ offered, c = d) ∨ ∃ c ∈ offered, position c ≤ position a) ∧
  (offered = [] ∨ (∃ c ∈ offered, position c ≤ position b) ∨ (position a < position b ∧ a ∉ offered))

/-- All range queries of the history are `Safe` at their time. -/
def AllSafe : List Id → List (Clock × Op) → Prop
  | _, [] => True
  | off, (_, .addDht o) :: h =>
    match o.cids with
    | [c] => AllSafe (c :: off) h
    | _ => AllSafe off h
  | off, (_, .range a b _) :: h => Safe off a b ∧ AllSafe off h
  | off, _ :: h => AllSafe off h

/-- Not later than. -/
def Clock.le (t t' : Clock) : Prop := t.sec < t'.sec ∨ (t.sec = t'.sec ∧ t.nsec ≤ t'.nsec)

/-- A date after 1970 and before the 64-bit count of seconds comes near its end. -/
def Clock.Sane (t : Clock) : Prop := 0 ≤ t.sec ∧ t.sec < 2 ^ 62

/-- The times of a history do not go back, and do not exceed `now`. -/
def Ordered (h : List (Clock × Op)) (now : Clock) : Prop :=
  (h.map (·.1) ++ [now]).Pairwise Clock.le ∧ ∀ t ∈ h.map (·.1) ++ [now], t.Sane

/-- In the history the offer was given to `AddDHTOffer`, which reported success. -/
def AcceptedDht (h : List (Clock × Op)) (outs : List Out) (o : CidOffer) : Prop :=
  ∃ t, ((t, Op.addDht o), Out.done true) ∈ h.zip outs
/-- In the history the offer was given to `AddGroupOffer`, which reported success. -/
def AcceptedGroup (h : List (Clock × Op)) (outs : List Out) (o : CidOffer) : Prop :=
  ∃ t, ((t, Op.addGroup o), Out.done true) ∈ h.zip outs

/-- All offers of a history are in range, all identifiers are 32 bytes, and the digests do not collide. -/
def SaneHistory (H512 : Hash) (h : List (Clock × Op)) : Prop :=
  (∀ o ∈ allAdded h, InRange o) ∧ (∀ e ∈ h, ProperOp e.2) ∧ NoCollision H512 (allAdded h)

end FcRetrieval.OfferMgr
