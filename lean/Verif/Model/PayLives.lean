import Verif.Model.Payment
/-! # A payer that is stopped and started again -/

namespace FcRetrieval.Payment

variable {Sig : Type}

/-- client/pkg/fcrclient/filecoin_retrieval_client.go:78-94 (`PaymentMgr`, made when it is first asked for) and payment_manager.go:89-114 `NewFCRPaymentMgr`: the payment manager of a process
starts with empty maps, and nothing in the package reads or writes a file.  So each life of a payer is a history of calls on a fresh manager, whatever was before.
The result: what an observer sees of each of the lives.  Simplified: one manager per life (see C141). -/
def payLives (sign : VBody → Option Sig) (me : Addr) (lives : List (List PayOp)) : List (List (PayEvent Sig)) :=
  lives.map (fun ops => (payRun sign (newMgr me) ops).2)

end FcRetrieval.Payment
