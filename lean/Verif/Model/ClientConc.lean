import Verif.Model.Client
/-!
# Calls of one client at the same time

`client/pkg/fcrclient/filecoin_retrieval_client.go:126-273`: the calls that manage the gateways, interleaved.  A step is what is done under
one lock, or between two locks; a lock that is held for one step only needs no state.  `GatewaysToUseLock` is held by
`RemoveGatewaysToUse` over many steps, during which others use `ActiveGatewaysLock`, so its holder is part of the state.  Identifiers are
not nil here (`Model/Client` has nil).  Each step is taken in its own circumstances.
-/

namespace FcRetrieval.ClientConc
open FcRetrieval.Ids (Id)
open FcRetrieval.Register (Record)
open FcRetrieval.Client (Env Settings validGateway requestEstablishment)

variable {Sig : Type}

/-- Where a call is. -/
inductive Pc where
  /-- filecoin_retrieval_client.go:128: the loop of `AddGatewaysToUse`, with the number added. -/
  | addUse (ids : List Id) (n : Nat)
  /-- filecoin_retrieval_client.go:139: about to look the gateway up. -/
  | addUseLook (id : Id) (ids : List Id) (n : Nat)
  /-- filecoin_retrieval_client.go:149: about to write. -/
  | addUseSet (id : Id) (r : Record) (ids : List Id) (n : Nat)
  /-- filecoin_retrieval_client.go:159: `RemoveGatewaysToUse`, about to lock. -/
  | removeUse (ids : List Id)
  /-- filecoin_retrieval_client.go:164: its loop, with the lock. -/
  | removing (ids : List Id) (n : Nat)
  /-- filecoin_retrieval_client.go:169: its loop, about to delete from the active gateways. -/
  | dropping (id : Id) (ids : List Id) (n : Nat)
  /-- filecoin_retrieval_client.go:180: `RemoveAllGatewaysToUse`. -/
  | removeAllUse
  /-- filecoin_retrieval_client.go:215: the loop of `AddActiveGateways`. -/
  | addActive (ids : List Id) (n : Nat)
  /-- filecoin_retrieval_client.go:222: about to read the gateways to use. -/
  | addActiveUse (id : Id) (ids : List Id) (n : Nat)
  /-- filecoin_retrieval_client.go:230: about to establish. -/
  | addActiveAsk (id : Id) (r : Record) (ids : List Id) (n : Nat)
  /-- filecoin_retrieval_client.go:239: about to write. -/
  | addActiveSet (id : Id) (r : Record) (ids : List Id) (n : Nat)
  /-- filecoin_retrieval_client.go:248: `RemoveActiveGateways`. -/
  | removeActive (ids : List Id)
  /-- filecoin_retrieval_client.go:265: `RemoveAllActiveGateways`. -/
  | removeAllActive
  /-- Returned with this number. -/
  | done (n : Nat)
  /-- Ended by a panic. -/
  | crashed

/-- The maps of the client, and the number of the call that holds `GatewaysToUseLock` for several steps. -/
structure Shared where
  toUse : List (List Char × Record)
  active : List (List Char × Record)
  holder : Option Nat

/-- filecoin_retrieval_client.go:252-259, under one lock. -/
def dropActive : List (List Char × Record) → List Id → List (List Char × Record) × Nat
  | m, [] => (m, 0)
  | m, id :: ids =>
    match mget m (Ids.toStr id) with
    | none => dropActive m ids
    | some _ => let l := dropActive (mdel m (Ids.toStr id)) ids; (l.1, l.2 + 1)

/-- One step of the call `i`; `none` if it waits for a lock or has returned. -/
def stepPc (E : Env Sig) (s : Settings) (i : Nat) (m : Shared) : Pc → Option (Shared × Pc)
  | .addUse [] n => some (m, .done n)
  | .addUse (id :: ids) n =>
    if m.holder.isSome then none
    else
      match mget m.toUse (Ids.toStr id) with
      | some _ => some (m, .addUse ids n)
      | none => some (m, .addUseLook id ids n)
  | .addUseLook id ids n =>
    match E.gateway id with
    | none => some (m, .addUse ids n)
    | some r =>
      match validGateway r with
      | .ok true => some (m, .addUseSet id r ids n)
      | .panic => some (m, .crashed)
      | _ => some (m, .addUse ids n)
  | .addUseSet id r ids n =>
    if m.holder.isSome then none else some ({ m with toUse := mset m.toUse (Ids.toStr id) r }, .addUse ids (n + 1))
  | .removeUse ids => if m.holder.isSome then none else some ({ m with holder := some i }, .removing ids 0)
  | .removing [] n => some ({ m with holder := none }, .done n)
  | .removing (id :: ids) n =>
    match mget m.toUse (Ids.toStr id) with
    | none => some (m, .removing ids n)
    | some _ => some ({ m with toUse := mdel m.toUse (Ids.toStr id) }, .dropping id ids (n + 1))
  | .dropping id ids n => some ({ m with active := mdel m.active (Ids.toStr id) }, .removing ids n)
  | .removeAllUse => if m.holder.isSome then none else some ({ m with toUse := [], active := [] }, .done m.toUse.length)
  | .addActive [] n => some (m, .done n)
  | .addActive (id :: ids) n =>
    match mget m.active (Ids.toStr id) with
    | some _ => some (m, .addActive ids n)
    | none => some (m, .addActiveUse id ids n)
  | .addActiveUse id ids n =>
    if m.holder.isSome then none
    else
      match mget m.toUse (Ids.toStr id) with
      | none => some (m, .addActive ids n)
      | some r => some (m, .addActiveAsk id r ids n)
  | .addActiveAsk id r ids n =>
    match (requestEstablishment E 0 r (E.challenge id) s.clientID (E.now + s.ttl)).2 with
    | .ok _ => some (m, .addActiveSet id r ids n)
    | .err => some (m, .addActive ids n)
    | .panic => some (m, .crashed)
  | .addActiveSet id r ids n => some ({ m with active := mset m.active (Ids.toStr id) r }, .addActive ids (n + 1))
  | .removeActive ids => let l := dropActive m.active ids; some ({ m with active := l.1 }, .done l.2)
  | .removeAllActive => some ({ m with active := [] }, .done m.active.length)
  | .done _ => none
  | .crashed => none

/-- The client and its calls. -/
structure State where
  shared : Shared
  calls : List Pc

/-- One step of one call. -/
def step (s : Settings) (E : Env Sig) (st : State) (i : Nat) : Option State :=
  match st.calls[i]? with
  | none => none
  | some pc =>
    match stepPc E s i st.shared pc with
    | none => none
    | some (m, pc') => some ⟨m, st.calls.set i pc'⟩

/-- A schedule: which call takes the next step, and in which circumstances. -/
def run (s : Settings) : State → List (Env Sig × Nat) → Option State
  | st, [] => some st
  | st, (E, i) :: l =>
    match step s E st i with
    | none => none
    | some st' => run s st' l

end FcRetrieval.ClientConc
