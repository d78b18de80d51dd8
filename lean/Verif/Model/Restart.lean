import Verif.Model.GatewayLife
/-!
# Model of a gateway that is stopped and started again (`gateway/cmd/gateway`, `gateway/internal/core`, `common/pkg/database`)

`Model/GatewayLife` has one life of a gateway, from the start of the process.  Here the process ends, at any moment, and is started again.  What
stays is the file of the database; key, identifier, prices, payments and reputations are in memory only.

The file is found relative to the working directory, which is taken to be the same each time.  What a statement has written is on the disk when it
returns (SQLite).  One process at a time has the file.
-/

namespace FcRetrieval.Restart
open FcRetrieval.Message (Msg)
open FcRetrieval.SqlOffer (DB)
open FcRetrieval.GatewayAdmin (Env Node newNode)
open FcRetrieval.GatewayLife (Request live step)

/-- What the machine, its environment and the configuration say when the process is started (database.go:20-21, gateway/config, core.go:99-141). -/
structure Boot where
  host : String
  dockerName : String
  searchPrice : Int
  offerPrice : Int
  topupAmount : Int

/-- common/pkg/database/database.go:17-31 `NewDatabase`: the name of the file.  The identifier of the gateway is no part of it. -/
def dbFile (b : Boot) : String :=
  let dbFileName := ".sqlite"
  let dbFileName := if b.dockerName = "" then b.host ++ dbFileName else b.dockerName ++ dbFileName
  "logs" ++ "/" ++ dbFileName

/-- The databases on the disk, by the names of their files; a file that does not exist is one without rows, since it is created when it is opened and
the tables are created if they do not exist (common/pkg/offermgr/offer_manager.go:33-35). -/
abbrev Disk := String → DB

/-- A disk on which no gateway has run. -/
def freshDisk : Disk := fun _ => SqlOffer.newDB

variable {Sig : Type}

/-- gateway/internal/core/core.go:99-141 `GetSingleInstance` and offer_manager.go:22-40 `NewFCROfferMgr`: the tables are dropped in unit tests only. -/
def up (disk : Disk) (b : Boot) : Node Sig := { newNode b.searchPrice b.offerPrice b.topupAmount with db := disk (dbFile b) }

/-- What is on the disk when the process has ended and left this database. -/
def down (disk : Disk) (b : Boot) (db : DB) : Disk := fun f => if f = dbFile b then db else disk f

/-- One life: the requests that were served to their end, and possibly one during which the process ended, with the database that was left then. -/
structure Life (Sig : Type) where
  boot : Boot
  served : List (Env Sig × Request × Msg)
  cut : Option ((Env Sig × Request × Msg) × DB)

/-- The gateway at the end of the requests that were served. -/
def Life.node (disk : Disk) (L : Life Sig) : Node Sig := live (up disk L.boot) L.served

/-- The database that a life leaves. -/
def Life.left (disk : Disk) (L : Life Sig) : DB :=
  match L.cut with
  | none => (L.node disk).db
  | some (_, db) => db

/-- The disk after lives one after the other. -/
def after (disk : Disk) : List (Life Sig) → Disk
  | [] => disk
  | L :: Ls => after (down disk L.boot (L.left disk)) Ls

end FcRetrieval.Restart
