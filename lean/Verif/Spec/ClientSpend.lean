import Verif.Spec.Client
/-! Demands for payment, and sums of payments. -/

namespace FcRetrieval.Client
open FcRetrieval.Ids (Id)
open FcRetrieval.Payment (Addr)
open FcRetrieval.Register (Record)
open FcRetrieval.Wire (decode)
open FcRetrieval.Codecs

variable {Sig : Type}

/-- The gateway of the record answered the search with "payment required". -/
def Demanded (E : Env Sig) (r : Record) : Prop :=
  ∃ m a cid nonce found digests funded x, Answered E 0 r m a ∧ decode clientStandardDiscoverResponseV2 a = .ok (cid, nonce, found, digests, funded, true, x)

/-- The gateway of the record answered the DHT search with "payment required" and named this payee. -/
def DemandedFor (E : Env Sig) (r : Record) (payee : List Char) : Prop :=
  ∃ m a ids answers missed nonce, Answered E 0 r m a ∧ decode clientDHTDiscoverResponseV2 a = .ok (ids, answers, missed, nonce, true, payee)

/-- What payments come to. -/
def total (l : List (Addr × Int)) : Int := (l.map (·.2)).sum

end FcRetrieval.Client
