/-!
# The identity of a node while requests overlap

A gateway keeps its identifier, its private key and the version of that key in three fields of one structure that all handlers
share (gateway/internal/core/core.go:43-56, provider/internal/core/core.go).  No lock protects them.  The handler that sets them
writes them one after the other (gateway/internal/api/adminapi/initialise_key_handler.go:41-43, initialise_key_handler_v2.go:42-44,
provider/internal/api/adminapi/initialise_key_handler.go:41-43, initialise_key_handler_v2.go:42-44), and a handler that sends a
message reads them one after the other, wherever it needs them.  Each read and each write is one step here; the steps of different
requests may come in any order.  Go promises less than that for unsynchronised access; what is shown to go wrong here goes wrong
already if single reads and writes are atomic and ordered.
-/

namespace FcRetrieval.Identity

/-- What the admin sets: an identifier, a private key and its version (gateway/internal/core/core.go:43-50). -/
structure Ident where
  id : Nat
  key : Nat
  ver : Nat
  deriving DecidableEq

/-- The three fields, each nil until it is set (gateway/internal/core/core.go:114-116). -/
structure Cells where
  id : Option Nat
  key : Option Nat
  ver : Option Nat
  deriving DecidableEq

/-- A request that is being handled. -/
inductive Thread where
  /-- A request that sets the identity, and how many of the three fields it has written. -/
  | setter (new : Ident) (written : Nat)
  /-- A request to the admin interface, before it has looked whether there is a key
  (gateway/internal/api/adminapi/get_client_reputation_handler.go:33). -/
  | admin
  /-- A request that will be answered with a message naming the node, before the identifier is read: `EncodeClientEstablishmentResponse(c.GatewayID, …)`
  in gateway/internal/api/clientapi/establishment_handler.go:51, or `EncodeProviderPublishDHTOfferRequest(c.ProviderID, …)` in
  provider/internal/api/providerapi/publish_dht_offer_requester.go:53. -/
  | start
  /-- The message has been made, with this identifier; before the key is read: `Sign(c.GatewayPrivateKey, …)`. -/
  | named (id : Nat)
  /-- The key has been read as well; before the version is read: `Sign(…, c.GatewayPrivateKeyVersion)`. -/
  | keyed (id key : Nat)
  /-- The message has been sent: it names this node and is signed with this key and this version. -/
  | sent (m : Ident)
  /-- Refused: there is no key. -/
  | refused
  /-- A nil pointer was used (common/pkg/nodeid/nodeid.go:102, common/pkg/fcrcrypto/msg_signing.go:40, key_version.go:73). -/
  | crashed
  deriving DecidableEq

/-- The fields and the requests being handled. -/
structure State where
  cells : Cells
  threads : List Thread
  deriving DecidableEq

/-- One step of a request.  initialise_key_handler.go:41-43 for a setter; for the others the places named in `Thread`. -/
def act (c : Cells) : Thread → Cells × Thread
  | .setter new 0 => ({ c with id := some new.id }, .setter new 1)
  | .setter new 1 => ({ c with key := some new.key }, .setter new 2)
  | .setter new 2 => ({ c with ver := some new.ver }, .setter new 3)
  | .setter new k => (c, .setter new k)
  | .admin => if c.key.isNone then (c, .refused) else (c, .start)
  | .start =>
    match c.id with
    | none => (c, .crashed)
    | some i => (c, .named i)
  | .named i =>
    match c.key with
    | none => (c, .crashed)
    | some k => (c, .keyed i k)
  | .keyed i k =>
    match c.ver with
    | none => (c, .crashed)
    | some v => (c, .sent ⟨i, k, v⟩)
  | .sent m => (c, .sent m)
  | .refused => (c, .refused)
  | .crashed => (c, .crashed)

/-- One step of request `i`. -/
def step (s : State) (i : Nat) : State :=
  match s.threads[i]? with
  | none => s
  | some t => { cells := (act s.cells t).1, threads := s.threads.set i (act s.cells t).2 }

/-- Any interleaving. -/
def run (s : State) : List Nat → State
  | [] => s
  | i :: l => run (step s i) l

/-- A node that has not been set up (gateway/internal/core/core.go:114-116). -/
def fresh : Cells := { id := none, key := none, ver := none }

/-- A node that has this identity. -/
def Cells.of (a : Ident) : Cells := { id := some a.id, key := some a.key, ver := some a.ver }

end FcRetrieval.Identity
