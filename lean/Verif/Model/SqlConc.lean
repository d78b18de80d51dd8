import Verif.Model.SqlOffer
/-!
# The database-backed offer manager used by several goroutines at once (`common/pkg/offermgr/offer_manager.go`)

The manager has no lock and uses no transaction: every statement is one of its own (`database.go:37-60`, `Exec` and `Query` on the pool of
connections), and the database executes single statements one at a time.  So a step of a call is one statement.  The outer query of a search
shows the tables as they are when it is sent; the query for the CIDs of one of its rows is sent when the loop comes to that row.  A statement
that stores something can be refused (the flag of a step: the database is locked by another connection for too long); queries are not refused,
since readers do not wait for writers (`PRAGMA journal_mode=wal`).
-/

namespace FcRetrieval.SqlOffer.Conc
open FcRetrieval.Ids (Id)
open FcRetrieval.Merkle (Hash)
open FcRetrieval.Offer (CidOffer)

/-- A search, at a time `now` on a host whose clock is `off` ahead of UTC. -/
inductive Query where
  /-- `GetOffers`, `GetGroupOffers`, `GetDHTOffers`. -/
  | byCid (c : Id) (off now : Int)
  /-- `GetDHTOffersWithinRange`. -/
  | range (cidMin cidMax : Id) (max : Int) (off now : Int)
  /-- `GetOfferByDigest`. -/
  | byDigest (d : Bytes) (off now : Int)

/-- A call of the manager. -/
inductive Call where
  /-- `AddGroupOffer`, `AddDHTOffer`. -/
  | insert (o : CidOffer)
  | ask (q : Query)

/-- How far a call has come. -/
inductive Th where
  | idle
  /-- The statements still to be executed, and whether the last one was accepted. -/
  | inserting (todo : List Stmt) (ok : Bool)
  /-- The rows of the outer query still to be looked at, and what has been collected. -/
  | reading (rows : List OfferRow) (res : List CidOffer) (find : Bool)
  | answered (r : Res (List CidOffer × Bool))
  | panicked

/-- The outer queries, offer_manager.go:110-145. -/
def rowsFor (db : DB) : Query → List OfferRow
  | .byCid c off now => db.offers.flatMap (fun o =>
      if unexpired off now o.expiry then (db.contents.filter (fun k => k.digest = o.digest ∧ k.cid = Ids.toStr c)).map (fun _ => o) else [])
  | .range a b _ off now => db.offers.filter (fun o =>
      db.contents.any (fun k => k.digest = o.digest ∧ strLe (Ids.toStr a) k.cid ∧ strLe k.cid (Ids.toStr b)) && unexpired off now o.expiry)
  | .byDigest d off now => db.offers.filter (fun o => o.digest = hexEncode d && unexpired off now o.expiry)

/-- The limits of the searches: offer_manager.go:118, 130, 140. -/
def limit : Query → Int
  | .byCid _ _ _ => -1
  | .range _ _ max _ _ => max
  | .byDigest _ _ _ => 1

/-- offer_manager.go:92-105: the statements of `insertOffer`. -/
def statements (d : Bytes) (p : Id) (o : CidOffer) : List Stmt :=
  .offer (offerRow (hexEncode d) p o) :: (contentRows (hexEncode d) o).map .content

/-- One step of a call: offer_manager.go:78-107 `insertOffer`, 148-182 `selectOffers`.  The first step of an addition computes the digest and
what is to be stored. -/
def step (H H512 : Hash) (order : List OfferRow → List OfferRow) (refused : Bool) (db : DB) : Call → Th → DB × Th
  | .insert o, .idle =>
    match Offer.digest H512 o, o.providerID with
    | .ok d, some p => (db, if bindable o then .inserting (statements d p o) true else .inserting [] false)
    | _, _ => (db, .panicked)
  | .insert _, .inserting (.offer r :: todo) _ =>
    if refused then (db, .inserting [] false) else (runStmt db (.offer r), .inserting todo true)
  | .insert _, .inserting (.content r :: todo) _ =>
    if refused then (db, .inserting todo false) else (runStmt db (.content r), .inserting todo true)
  | .ask q, .idle => (db, .reading (order (rowsFor db q)) [] false)
  | .ask _, .reading [] res find => (db, .answered (.ok (res, find)))
  | .ask q, .reading (r :: rows) res find =>
    match rebuild H db r with
    | .ok (o, has) =>
      if ((res ++ [o]).length : Int) ≥ limit q ∧ limit q > 0 then (db, .answered (.ok (res ++ [o], find || has)))
      else (db, .reading rows (res ++ [o]) (find || has))
    | _ => (db, .answered .panic)
  | _, th => (db, th)

/-- The database and the calls in progress. -/
structure Sys where
  db : DB
  threads : List (Call × Th)

/-- Call `i` makes a step. -/
def sysStep (H H512 : Hash) (order : List OfferRow → List OfferRow) (s : Sys) (m : Nat × Bool) : Sys :=
  match s.threads[m.1]? with
  | none => s
  | some (c, th) =>
    let r := step H H512 order m.2 s.db c th
    ⟨r.1, s.threads.set m.1 (c, r.2)⟩

/-- A schedule: which call moves, and whether the database refuses the statement. -/
def sysRun (H H512 : Hash) (order : List OfferRow → List OfferRow) (s : Sys) (sched : List (Nat × Bool)) : Sys :=
  sched.foldl (sysStep H H512 order) s

/-- Calls that are about to begin. -/
def begin (db : DB) (calls : List Call) : Sys := ⟨db, calls.map (·, .idle)⟩

/-- offer_manager.go:140-145: what `GetOfferByDigest` makes of the result. -/
def byDigestAnswer : Res (List CidOffer × Bool) → Res (Option CidOffer)
  | .ok (_, false) => .ok none
  | .ok (o :: _, true) => .ok (some o)
  | .ok ([], true) => .panic
  | .err => .err
  | .panic => .panic

end FcRetrieval.SqlOffer.Conc
