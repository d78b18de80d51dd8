import Verif.Model.Message
import Verif.Model.Maps
/-!
# Model of the register service (`register/internal/handlers`) and of the client side of it

The service keeps its records in two Redis hashes, `gateway` and `provider`; a record is stored as the text of its JSON form.  A
request is the bytes of its body.  Redis is assumed to be reachable.  Strings are lists of characters.
-/

namespace FcRetrieval.Register

/-- A registration: register/models/gateway_register.go:18-46, models/provider_register.go:18-43,
common/pkg/register/gateway_register.go:13-23, provider_register.go:28-37.  A provider has no `networkInfoProvider`. -/
structure Record where
  nodeID : List Char
  address : List Char
  rootSigningKey : List Char
  signingKey : List Char
  regionCode : List Char
  netGateway : List Char
  netProvider : List Char
  netClient : List Char
  netAdmin : List Char
  deriving DecidableEq

/-- The two hashes. -/
inductive Kind where
  | gateway
  | provider
  deriving DecidableEq

/-- The JSON members of common/pkg/register/gateway_register.go:13-23 and provider_register.go:28-37, in their order. -/
def members (k : Kind) (r : Record) : List (String × Json) :=
  [("nodeId", .str r.nodeID), ("address", .str r.address), ("rootSigningKey", .str r.rootSigningKey),
    ("signingKey", .str r.signingKey), ("regionCode", .str r.regionCode), ("networkInfoGateway", .str r.netGateway)] ++
  (match k with | .gateway => [("networkInfoProvider", .str r.netProvider)] | .provider => []) ++
  [("networkInfoClient", .str r.netClient), ("networkInfoAdmin", .str r.netAdmin)]

/-- `omitempty`. -/
def opt (name : String) (v : List Char) : List (String × Json) := if v = [] then [] else [(name, .str v)]

/-- The JSON members of register/models/gateway_register.go:18-46 and provider_register.go:18-43, in their order. -/
def serviceMembers (k : Kind) (r : Record) : List (String × Json) :=
  opt "address" r.address ++ opt "networkInfoAdmin" r.netAdmin ++ opt "networkInfoClient" r.netClient ++
  opt "networkInfoGateway" r.netGateway ++
  (match k with | .gateway => opt "networkInfoProvider" r.netProvider | .provider => []) ++
  opt "nodeId" r.nodeID ++ opt "regionCode" r.regionCode ++ opt "rootSigningKey" r.rootSigningKey ++
  opt "signingKey" r.signingKey

/-- `json.Unmarshal` into one of the four record types (the members have the same names in the service and in the nodes). -/
def unmarshal (k : Kind) (j : Json) : Option Record := do
  let fs ← decObj j
  let nodeID ← decStr (memberFor "nodeId" fs)
  let address ← decStr (memberFor "address" fs)
  let rootSigningKey ← decStr (memberFor "rootSigningKey" fs)
  let signingKey ← decStr (memberFor "signingKey" fs)
  let regionCode ← decStr (memberFor "regionCode" fs)
  let netGateway ← decStr (memberFor "networkInfoGateway" fs)
  let netProvider ← (match k with | .gateway => decStr (memberFor "networkInfoProvider" fs) | .provider => some [])
  let netClient ← decStr (memberFor "networkInfoClient" fs)
  let netAdmin ← decStr (memberFor "networkInfoAdmin" fs)
  return ⟨nodeID, address, rootSigningKey, signingKey, regionCode, netGateway, netProvider, netClient, netAdmin⟩

/-- register/models/gateway_register.go:59-64 `MarshalBinary`: what is stored. -/
def storedText (k : Kind) (r : Record) : Bytes := Message.jsonText (.obj (serviceMembers k r))

/-- `json.Unmarshal` of a text. -/
def readRecord (k : Kind) (b : Bytes) : Option Record := (Message.parseText b).bind (unmarshal k)

/-- What the generated code reads of the body of a request (restapi/operations/gateway/add_gateway_register_parameters.go:48-80, and the same for
providers): `runtime.JSONConsumer` (restapi/configure_register.go:43) is a `json.Decoder`, which reads the first value of the body and does not
look at what follows. -/
def firstValue (b : Bytes) : Option Json := (utf8Text b).bind (fun s => (readValue (2 * s.length + 2) s).map Prod.fst)

/-- The record that a request carries. -/
def readBody (k : Kind) (b : Bytes) : Option Record := (firstValue b).bind (unmarshal k)

/-- The service: the Redis hashes. -/
structure Service where
  gateway : List (List Char × Bytes)
  provider : List (List Char × Bytes)

/-- The hash of a kind. -/
def Service.hash (s : Service) : Kind → List (List Char × Bytes)
  | .gateway => s.gateway
  | .provider => s.provider

/-- Replace a hash. -/
def Service.setHash (s : Service) (k : Kind) (h : List (List Char × Bytes)) : Service :=
  match k with
  | .gateway => { s with gateway := h }
  | .provider => { s with provider := h }

/-- Answer of the service. -/
inductive Reply where
  | ok (body : Bytes)
  | error
  deriving DecidableEq

/-- gateways_handler.go:19-39 `AddGatewayRegister`, providers_handler.go:19-40 `AddProviderRegister`; a body that is not a record
is refused by the generated code before.  The answer is written by another encoder than the stored text, which leaves `<`, `>` and `&` as they
are and ends the line; here both are the same text. -/
def add (s : Service) (k : Kind) (body : Bytes) : Service × Reply :=
  match readBody k body with
  | none => (s, .error)
  | some r => (s.setHash k (mset (s.hash k) r.nodeID (storedText k r)), .ok (storedText k r))

/-- The zero record with which unreadable stored text is answered. -/
def zero : Record := ⟨[], [], [], [], [], [], [], [], []⟩

/-- gateways_handler.go:42-71 `GetGatewayRegisters`, providers_handler.go:43-71.  Go lists the hash in any order; here in the
order of the model's list. -/
def list (s : Service) (k : Kind) : Bytes :=
  Message.jsonText (.arr ((s.hash k).map (fun e => .obj (serviceMembers k ((readRecord k e.2).getD zero)))))

/-- gateways_handler.go:74-98 `GetGatewayRegisterByID`, providers_handler.go:74-100.  Unreadable stored text is answered with the zero record
for a gateway, and with an error for a provider. -/
def getByID (s : Service) (k : Kind) (id : List Char) : Reply :=
  match mget (s.hash k) id with
  | none => .error
  | some text =>
    match readRecord k text, k with
    | some r, _ => .ok (storedText k r)
    | none, .gateway => .ok (storedText k zero)
    | none, .provider => .error

/-- gateways_handler.go:101-130 `DeleteGatewayRegisters`, providers_handler.go:103-132: one `HDEL` per key listed. -/
def deleteAll (s : Service) (k : Kind) : Service :=
  s.setHash k ((mkeys (s.hash k)).foldl mdel (s.hash k))

/-- common/pkg/fcrregistermgr/register_manager.go:165-174 `RegisterGateway`, `RegisterProvider`: the body sent. -/
def registration (k : Kind) (r : Record) : Bytes := Message.jsonText (.obj (members k r))

/-- One element of a slice of pointers; `null` is a nil pointer. -/
def readElem (k : Kind) : Json → Option (Option Record)
  | .null => some none
  | j => (unmarshal k j).map some

/-- register_manager.go:261-265, 286-289: `json.Unmarshal` into a slice of pointers. -/
def readListing (k : Kind) (b : Bytes) : Option (List (Option Record)) := do
  match ← Message.parseText b with
  | .null => return []
  | .arr xs => xs.mapM (readElem k)
  | _ => none

end FcRetrieval.Register
