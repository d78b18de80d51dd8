import Verif.Model.Restart
import Verif.Spec.GatewayLife
/-!
# Specification vocabulary for a gateway that is stopped and started again
-/

namespace FcRetrieval.Restart
open FcRetrieval.Message (Msg)
open FcRetrieval.SqlOffer (DB)
open FcRetrieval.GatewayAdmin (Env Node)
open FcRetrieval.GatewayLife (Request step)

variable {Sig : Type}

/-- What the gateway is called: the container, if it has a name, and else the machine. -/
def Boot.name (b : Boot) : String := if b.dockerName ≠ "" then b.dockerName else b.host

/-- A database is between two others: rows are only ever added at the end of the tables, and some of the rows that the later one has more than
the earlier one are there, in each table the first ones. -/
def Between (a x b : DB) : Prop :=
  (a.offers <+: x.offers ∧ x.offers <+: b.offers) ∧ (a.contents <+: x.contents ∧ x.contents <+: b.contents)

/-- If the process ended during a request, it left a database between the one before the request and the one that the request would have left. -/
def Life.Fits (disk : Disk) (L : Life Sig) : Prop :=
  ∀ e db, L.cut = some (e, db) → Between (L.node disk).db db (step e.1 (L.node disk) e.2.1 e.2.2).1.db

/-- So for every one of the lives. -/
def Fit (disk : Disk) : List (Life Sig) → Prop
  | [] => True
  | L :: Ls => L.Fits disk ∧ Fit (down disk L.boot (L.left disk)) Ls

/-- All requests of the lives, those that were cut among them. -/
def requests (Ls : List (Life Sig)) : List (Env Sig × Request × Msg) :=
  Ls.flatMap (fun L => L.served ++ (L.cut.map (·.1)).toList)

end FcRetrieval.Restart
