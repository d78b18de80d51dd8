import Verif.Model.OfferMgr
/-!
# Model of the database-backed offer manager (`common/pkg/offermgr/offer_manager.go`), used by the gateway

The two tables are lists of rows.  SQL leaves the order of result rows open: it is the parameter `order`.  Which statements
the database fails to execute is the parameter `fails`.  Not modelled: the primary-key errors of two processes inserting at
once.  Result sets left open when a listing stops at its limit are in `Model/SqlConn`.
-/

namespace FcRetrieval.SqlOffer
open FcRetrieval.Ids (Id)
open FcRetrieval.Merkle (Hash)
open FcRetrieval.Offer (CidOffer)

/-- A row of table `offer` (offer_manager.go:33). -/
structure OfferRow where
  digest : List Char
  provider : List Char
  expiry : Int
  price : Nat
  qos : Nat
  signature : List Char
  deriving DecidableEq

/-- A row of table `content` (offer_manager.go:34). -/
structure ContentRow where
  cid : List Char
  no : Nat
  digest : List Char
  deriving DecidableEq

/-- The database. -/
structure DB where
  offers : List OfferRow
  contents : List ContentRow
  deriving DecidableEq

/-- offer_manager.go:33-35: the tables are created if they do not exist; here a new database. -/
def newDB : DB := ⟨[], []⟩

/-- One insert statement (offer_manager.go:80-89). -/
inductive Stmt where
  | offer (r : OfferRow)
  | content (r : ContentRow)
  deriving DecidableEq

/-- Executing it: nothing is inserted if the primary key exists. -/
def runStmt (db : DB) : Stmt → DB
  | .offer r => if db.offers.any (fun x => x.digest = r.digest) then db else { db with offers := db.offers ++ [r] }
  | .content r =>
    if db.contents.any (fun x => x.no = r.no ∧ x.digest = r.digest) then db else { db with contents := db.contents ++ [r] }

/-- offer_manager.go:92-97, the row of the offer. -/
def offerRow (dHex : List Char) (p : Id) (o : CidOffer) : OfferRow :=
  ⟨dHex, Ids.toStr p, o.expiry, o.price, o.qos, o.signature⟩

/-- offer_manager.go:101-105, the rows of its CIDs. -/
def contentRows (dHex : List Char) (o : CidOffer) : List ContentRow :=
  o.cids.zipIdx.map (fun e => ⟨Ids.toStr e.1, e.2, dHex⟩)

/-- `database/sql` refuses unsigned numbers with the high bit set. -/
def bindable (o : CidOffer) : Bool := decide (o.price < 2 ^ 63) && decide (o.qos < 2 ^ 63)

/-- offer_manager.go:102-105: the error returned is that of the last statement. -/
def runContents (fails : Nat → Bool) : Nat → List ContentRow → DB → Bool → DB × Bool
  | _, [], db, ok => (db, ok)
  | i, r :: rs, db, _ =>
    if fails (i + 1) then runContents fails (i + 1) rs db false
    else runContents fails (i + 1) rs (runStmt db (.content r)) true

/-- offer_manager.go:78-107 `insertOffer`; the flag is false if an error is returned. -/
def insertOffer (H512 : Hash) (fails : Nat → Bool) (db : DB) (o : CidOffer) : Res (DB × Bool) := do
  let d ← Offer.digest H512 o
  match o.providerID with
  | none => .panic
  | some p =>
    if fails 0 || !bindable o then return (db, false)
    return runContents fails 0 (contentRows (hexEncode d) o) (runStmt db (.offer (offerRow (hexEncode d) p o))) true

/-- offer_manager.go:43-45 `AddGroupOffer`. -/
def addGroup (H512 : Hash) (fails : Nat → Bool) (db : DB) (o : CidOffer) : Res (DB × Bool) := insertOffer H512 fails db o
/-- offer_manager.go:48-50 `AddDHTOffer`. -/
def addDht (H512 : Hash) (fails : Nat → Bool) (db : DB) (o : CidOffer) : Res (DB × Bool) := insertOffer H512 fails db o

/-- The database when the process stops after `n` statements of `insertOffer`; each statement is its own transaction. -/
def interrupted (H512 : Hash) (n : Nat) (db : DB) (o : CidOffer) : Res DB := do
  let d ← Offer.digest H512 o
  match o.providerID with
  | none => .panic
  | some p =>
    return ((Stmt.offer (offerRow (hexEncode d) p o) :: (contentRows (hexEncode d) o).map .content).take n).foldl runStmt db

/-- `datetime(o.expiry, 'unixepoch') > datetime('now', 'utc')` at `now` seconds since 1970 on a host whose clock is `off`
seconds ahead of UTC.  `'now'` is UTC already, and `'utc'` takes it for local time and subtracts the offset (SQLite 3.35).
`datetime` is NULL outside the years -4713 to 9999, and then the comparison does not hold.  Texts of dates compare like the
dates (years before 0 begin with `-`, which sorts first). -/
def unexpired (off now : Int) (expiry : Int) : Bool :=
  decide (-210866760000 ≤ expiry) && decide (expiry ≤ 253402300799) && decide (now - off < expiry)

/-- Comparison of texts. -/
def strLe : List Char → List Char → Bool
  | [], _ => true
  | _ :: _, [] => false
  | a :: as, b :: bs => if a.toNat < b.toNat then true else if a.toNat = b.toNat then strLe as bs else false

/-- offer_manager.go:154, 163: the CIDs of an offer, in their order. -/
def contentOf (db : DB) (dHex : List Char) : List (List Char) :=
  ((db.contents.filter (fun r => r.digest = dHex)).mergeSort (fun a b => decide (a.no ≤ b.no))).map (·.cid)

/-- offer_manager.go:161-174: the offer of a row; malformed identifiers and offers without CIDs are nil dereferences. -/
def rebuild (H : Hash) (db : DB) (r : OfferRow) : Res (CidOffer × Bool) :=
  match Ids.mapFromString (contentOf db r.digest) with
  | none => .panic
  | some ids =>
    match Offer.newOffer H (Ids.fromHex r.provider) ids r.price r.expiry r.qos with
    | none => .panic
    | some o => .ok ({ o with signature := r.signature }, !ids.isEmpty)

/-- offer_manager.go:155-180, the loop over the result rows. -/
def selectGo (H : Hash) (db : DB) (max : Int) : List OfferRow → List CidOffer → Bool → Res (List CidOffer × Bool)
  | [], res, find => .ok (res, find)
  | r :: rs, res, find => do
    let (o, has) ← rebuild H db r
    let res := res ++ [o]
    let find := find || has
    if (res.length : Int) ≥ max ∧ max > 0 then return (res, find)
    selectGo H db max rs res find

/-- offer_manager.go:110-118 `selectOffersSingle`: one result row per matching row of `content`. -/
def selectSingle (H : Hash) (order : List OfferRow → List OfferRow) (off now : Int) (db : DB) (c : Id) : Res (List CidOffer × Bool) :=
  let rows := db.offers.flatMap (fun o =>
    if unexpired off now o.expiry then (db.contents.filter (fun k => k.digest = o.digest ∧ k.cid = Ids.toStr c)).map (fun _ => o) else [])
  selectGo H db (-1) (order rows) [] false

/-- offer_manager.go:121-130 `selectOffersRange`. -/
def selectRange (H : Hash) (order : List OfferRow → List OfferRow) (off now : Int) (db : DB) (max : Int) (cidMin cidMax : Id) :
    Res (List CidOffer × Bool) :=
  let rows := db.offers.filter (fun o =>
    db.contents.any (fun k => k.digest = o.digest ∧ strLe (Ids.toStr cidMin) k.cid ∧ strLe k.cid (Ids.toStr cidMax)) && unexpired off now o.expiry)
  selectGo H db max (order rows) [] false

/-- offer_manager.go:133-145 `selectOffersDigest`. -/
def selectDigest (H : Hash) (order : List OfferRow → List OfferRow) (off now : Int) (db : DB) (d : Bytes) : Res (Option CidOffer) := do
  let rows := db.offers.filter (fun o => o.digest = hexEncode d && unexpired off now o.expiry)
  let (offers, exist) ← selectGo H db 1 (order rows) [] false
  if !exist then return none
  match offers with
  | [] => .panic
  | o :: _ => return some o

/-- offer_manager.go:53-55 `GetGroupOffers`. -/
def getGroup := selectSingle
/-- offer_manager.go:58-60 `GetDHTOffers`. -/
def getDht := selectSingle
/-- offer_manager.go:68-70 `GetOffers`. -/
def getOffers := selectSingle
/-- offer_manager.go:63-65 `GetDHTOffersWithinRange`. -/
def getDhtRange (H : Hash) (order : List OfferRow → List OfferRow) (off now : Int) (db : DB) (cidMin cidMax : Id) (max : Int) :=
  selectRange H order off now db max cidMin cidMax
/-- offer_manager.go:73-75 `GetOfferByDigest`. -/
def getByDigest := selectDigest

end FcRetrieval.SqlOffer
