import Verif.Spec.Payment
/-! # Specification vocabulary for a payer that is stopped and started again -/

namespace FcRetrieval.Payment

/-- These calls open or fund, or would open, the channel `ch` for the recipient: the chain has executed a top-up and named `ch`. -/
def Opens (ops : List PayOp) (r ch : Addr) : Prop := ∃ a, PayOp.topup r a (.executed ch) ∈ ops

/-- No channel that one of the lives opens for the recipient is opened in another: the chain gives a new channel a new address. -/
def NewChannels (r : Addr) (lives : List (List PayOp)) : Prop :=
  lives.Pairwise (fun ops ops' => ∀ ch, Opens ops r ch → ¬ Opens ops' r ch)

end FcRetrieval.Payment
