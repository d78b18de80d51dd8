import Verif.Model.SqlOffer
/-!
# The connections to the database that the offer manager of the gateway uses (`common/pkg/offermgr/offer_manager.go`, `common/pkg/database/database.go`)

The manager reads through a pool of connections.  A result set holds a connection until `Next` has answered false or `Close` is called, and the manager never calls
`Close`.  There is no limit on the size of the pool (no `SetMaxOpenConns`), so what limits it is the number of files that the process may have open; it is the parameter
`room`, the number of connections that can be in use at the same time.  Calls come one after the other.  A call that panics is one of a REST handler: `net/http` recovers,
and the process goes on.  Simplifications: `room` is a constant (in fact connections of clients take from the same files), and opening a connection fails only for want of
room.
-/

namespace FcRetrieval.SqlOffer.Conn
open FcRetrieval.Ids (Id)
open FcRetrieval.Merkle (Hash)
open FcRetrieval.Offer (CidOffer)

/-- The database, and how many connections are in use. -/
structure Store where
  db : DB
  held : Nat
  deriving DecidableEq

/-- offer_manager.go:155-181, the loop over the result rows, whose result set is one of the `held`.  For every row the CIDs are read through a second connection; an error
of that query is not looked at, and using its result is a nil dereference (line 163).  A malformed CID is one with both result sets open (line 167), an offer that cannot be
built one with the outer set open (line 173).  At the limit the loop is left with the outer set open (line 177). -/
def selectGo (H : Hash) (room : Nat) (db : DB) (max : Int) : List OfferRow → Nat → List CidOffer → Bool → Nat × Res (List CidOffer × Bool)
  | [], held, res, find => (held - 1, .ok (res, find))
  | r :: rs, held, res, find =>
    if room ≤ held then (held, .panic)
    else
      match Ids.mapFromString (contentOf db r.digest) with
      | none => (held + 1, .panic)
      | some ids =>
        match Offer.newOffer H (Ids.fromHex r.provider) ids r.price r.expiry r.qos with
        | none => (held, .panic)
        | some o =>
          let res := res ++ [{ o with signature := r.signature }]
          let find := find || !ids.isEmpty
          if (res.length : Int) ≥ max ∧ max > 0 then (held, .ok (res, find)) else selectGo H room db max rs held res find

/-- offer_manager.go:148-153 `selectOffers`: if the query fails nothing is found. -/
def select (H : Hash) (room : Nat) (s : Store) (max : Int) (rows : List OfferRow) : Store × Res (List CidOffer × Bool) :=
  if room ≤ s.held then (s, .ok ([], false))
  else
    let r := selectGo H room s.db max rows (s.held + 1) [] false
    ({ s with held := r.1 }, r.2)

/-- offer_manager.go:53-60, 68-70, 110-118: searches by CID. -/
def getOffers (H : Hash) (order : List OfferRow → List OfferRow) (room : Nat) (off now : Int) (s : Store) (c : Id) : Store × Res (List CidOffer × Bool) :=
  select H room s (-1) (order (s.db.offers.flatMap (fun o =>
    if unexpired off now o.expiry then (s.db.contents.filter (fun k => k.digest = o.digest ∧ k.cid = Ids.toStr c)).map (fun _ => o) else [])))

/-- offer_manager.go:63-65, 121-130: listings of a range. -/
def getDhtRange (H : Hash) (order : List OfferRow → List OfferRow) (room : Nat) (off now : Int) (s : Store) (a b : Id) (max : Int) : Store × Res (List CidOffer × Bool) :=
  select H room s max (order (s.db.offers.filter (fun o =>
    s.db.contents.any (fun k => k.digest = o.digest ∧ strLe (Ids.toStr a) k.cid ∧ strLe k.cid (Ids.toStr b)) && unexpired off now o.expiry)))

/-- offer_manager.go:73-75, 133-145: searches by digest, with limit 1. -/
def getByDigest (H : Hash) (order : List OfferRow → List OfferRow) (room : Nat) (off now : Int) (s : Store) (d : Bytes) : Store × Res (Option CidOffer) :=
  match select H room s 1 (order (s.db.offers.filter (fun o => o.digest = hexEncode d && unexpired off now o.expiry))) with
  | (s, .ok (_, false)) => (s, .ok none)
  | (s, .ok (o :: _, true)) => (s, .ok (some o))
  | (s, .ok ([], true)) => (s, .panic)
  | (s, .err) => (s, .err)
  | (s, .panic) => (s, .panic)

/-- offer_manager.go:43-50, 78-107 with database.go:37-47: every statement takes a connection and gives it back; without room all are refused. -/
def add (H512 : Hash) (room : Nat) (s : Store) (o : CidOffer) : Store × Res Bool :=
  match insertOffer H512 (fun _ => decide (room ≤ s.held)) s.db o with
  | .ok (db, ok) => ({ s with db := db }, .ok ok)
  | .err => (s, .err)
  | .panic => (s, .panic)

end FcRetrieval.SqlOffer.Conn
