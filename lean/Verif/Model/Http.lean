import Verif.Model.Register
import Verif.Model.RegMgr
/-!
# Model of `common/pkg/request/request.go`, what a node makes of the answers over HTTP, and of the register service as it is seen over HTTP
-/

namespace FcRetrieval.Http
open FcRetrieval.Register (Record Kind Service)

/-- What becomes of a request: the URL gives no request; no answer comes; an answer with a status and a body, which may break off (`none`). -/
inductive Outcome where
  | noRequest
  | failed
  | answered (status : Nat) (body : Option Bytes)

/-- request.go:59-75 `GetJSON`. -/
def getJSON : Outcome → Option Bytes
  | .answered _ (some b) => some b
  | _ => none

/-- request.go:78-97 `SendJSON`: whether it returns no error. -/
def sendJSON : Outcome → Bool
  | .answered _ _ => true
  | _ => false

/-- request.go:138-153 `Delete`: whether it returns no error. -/
def delete : Outcome → Bool
  | .answered status _ => status == 200
  | _ => false

/-- register_manager.go:256-266, 281-289: what a listing is read as. -/
def answer (k : Kind) (o : Outcome) : RegMgr.Answer := (getJSON o).bind (Register.readListing k)

/-- register_manager.go:165-174 `RegisterGateway`, `RegisterProvider`, with whatever is reached at the address of the register. -/
def register (at_ : Service → Bytes → Service × Outcome) (s : Service) (k : Kind) (r : Record) : Service × Bool :=
  ((at_ s (Register.registration k r)).1, sendJSON (at_ s (Register.registration k r)).2)

/-- register/internal/handlers/gateways_handler.go:19-39, providers_handler.go:19-40: the service, whose Redis is up or not.  If not, the handler panics, and
the HTTP library closes the connection without an answer. -/
def serveAdd (up : Bool) (k : Kind) (s : Service) (body : Bytes) : Service × Outcome :=
  if up then
    match Register.add s k body with
    | (s', .ok b) => (s', .answered 200 (some b))
    | (s', .error) => (s', .answered 422 (some []))
  else
    match Register.readBody k body with
    | some _ => (s, .failed)
    | none => (s, .answered 422 (some []))

/-- register/models/error.go:19-33: what is answered if Redis cannot be read. -/
def errorBody : Bytes := Message.jsonText (.obj [("code", .null), ("message", .str "Unable to get Redis value".toList)])

/-- gateways_handler.go:42-71, providers_handler.go:43-71. -/
def serveList (up : Bool) (k : Kind) (s : Service) : Outcome :=
  if up then .answered 200 (some (Register.list s k)) else .answered 404 (some errorBody)

/-- gateways_handler.go:101-130, providers_handler.go:103-132. -/
def serveDelete (up : Bool) (k : Kind) (s : Service) : Service × Outcome :=
  if up then (Register.deleteAll s k, .answered 200 (some [])) else (s, .answered 404 (some errorBody))

end FcRetrieval.Http
