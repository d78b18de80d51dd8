import Verif.Model.ClientConc
import Verif.Spec.Client
/-! What is stated about calls at the same time. -/

namespace FcRetrieval.ClientConc
open FcRetrieval.Ids (Id)
open FcRetrieval.Register (Record)
open FcRetrieval.Client (Env Settings CompleteGateway Established)

variable {Sig : Type}

/-- A call that has not taken a step. -/
def Started : Pc → Prop
  | .addUse _ n => n = 0
  | .removeUse _ => True
  | .removeAllUse => True
  | .addActive _ n => n = 0
  | .removeActive _ => True
  | .removeAllActive => True
  | _ => False

/-- A call that has ended. -/
def Ended : Pc → Prop
  | .done _ => True
  | .crashed => True
  | _ => False

/-- A call that takes gateways out of use. -/
def Removes : Pc → Prop
  | .removeUse _ => True
  | .removing _ _ => True
  | .dropping _ _ _ => True
  | .removeAllUse => True
  | _ => False

/-- A client with these gateways, and calls that are about to start. -/
def Fresh (st : State) : Prop := st.shared.holder = none ∧ ∀ pc ∈ st.calls, Started pc

/-- A step of the schedule looked the gateway with this identifier up, and its record was complete. -/
def WasValidated (l : List (Env Sig × Nat)) (key : List Char) (r : Record) : Prop :=
  ∃ e ∈ l, ∃ id, Ids.toStr id = key ∧ e.1.gateway id = some r ∧ CompleteGateway r

/-- A step of the schedule made an establishment exchange with the node of the record. -/
def WasEstablished (l : List (Env Sig × Nat)) (key : List Char) (r : Record) : Prop :=
  ∃ e ∈ l, ∃ id m, Ids.toStr id = key ∧ Established e.1 0 r (e.1.challenge id) m

end FcRetrieval.ClientConc
