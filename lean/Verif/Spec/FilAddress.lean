import Verif.Model.FilAddress
/-!
# Specification vocabulary for channels on the chain
-/

namespace FcRetrieval.FilAddress
open FcRetrieval.Payment (RecvOp RecvOut)

variable {Sig : Type}

/-- Everything credited for a channel on the chain, however its address was written. -/
def creditedFor (rest : Char → List Char → Option (List UInt8)) (x : Address) : List (RecvOp Sig) → List RecvOut → Int
  | op :: ops, .credited a :: outs => (if read rest op.channel.toList = some x then a else 0) + creditedFor rest x ops outs
  | _ :: ops, _ :: outs => creditedFor rest x ops outs
  | _, _ => 0

end FcRetrieval.FilAddress
