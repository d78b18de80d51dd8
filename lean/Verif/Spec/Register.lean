import Verif.Model.Register
/-!
# Specification vocabulary for the register service
-/

namespace FcRetrieval.Register

/-- Requests that change the service. -/
inductive Op where
  | add (k : Kind) (body : Bytes)
  | deleteAll (k : Kind)

/-- The service after one request. -/
def serve (s : Service) : Op → Service
  | .add k body => (add s k body).1
  | .deleteAll k => deleteAll s k

/-- The service after these requests, starting with empty hashes. -/
def after (ops : List Op) : Service := ops.foldl serve ⟨[], []⟩

/-- How a request changes the current record of an identifier. -/
def note (k : Kind) (id : List Char) (cur : Option Record) : Op → Option Record
  | .deleteAll k' => if k' = k then none else cur
  | .add k' body =>
    match readBody k' body with
    | some r => if k' = k ∧ r.nodeID = id then some r else cur
    | none => cur

/-- The last record of this kind with this identifier that was added since the last deletion of the kind. -/
def latest (k : Kind) (id : List Char) (ops : List Op) : Option Record := ops.foldl (note k id) none

/-- A record that can be of the kind: providers have no address for providers. -/
def Fits (k : Kind) (r : Record) : Prop := k = .provider → r.netProvider = []

end FcRetrieval.Register
