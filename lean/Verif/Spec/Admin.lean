import Verif.Model.Admin
import Verif.Model.GatewayAdmin
import Verif.Spec.Crypto
import Verif.Spec.Codecs
/-!
# Specification vocabulary for the admin libraries and the admin API of the gateway
-/

namespace FcRetrieval.Admin
open FcRetrieval.Ids (Id)
open FcRetrieval.Crypto (Prims KeyPair KeyVersion)
open FcRetrieval.Message (Msg)
open FcRetrieval.Register (Record)
open FcRetrieval.GatewayAdmin (Node)

variable {S : Type}

/-- The message verifies under the key in the record. -/
def SignedBy (P : Prims) (r : Record) (a : Msg) : Prop :=
  ∃ k, Crypto.decodePublicKey r.signingKey = .ok k ∧ Crypto.verifyMessage P k a.signature (Message.toSign a) = some true

/-- The private key belongs to the key in the record, and signs whatever it is asked to. -/
def Owns (P : Prims) (r : Record) (k : KeyPair) (v : KeyVersion) : Prop :=
  Crypto.PrivateKey k ∧ (∀ b, (Crypto.signMessage P k v b).isSome) ∧
    ∃ pk, Crypto.decodePublicKey r.signingKey = .ok pk ∧ pk.alg = Crypto.sigAlg ∧ Crypto.publicPart P pk = Crypto.publicPart P k

/-- The private key signs whatever it is asked to, and none of its signatures verifies under the key in the record. -/
def Stranger (P : Prims) (r : Record) (k : KeyPair) (v : KeyVersion) : Prop :=
  Crypto.PrivateKey k ∧ (∀ b, (Crypto.signMessage P k v b).isSome) ∧
    ∃ pk, Crypto.decodePublicKey r.signingKey = .ok pk ∧ ∀ b sig, Crypto.signMessage P k v b = some sig → Crypto.verifyMessage P pk sig b ≠ some true

/-- The library has a key that signs whatever it is asked to. -/
def HasKey (A : Env) : Prop := ∃ k v, A.key = some (k, v) ∧ ∀ b, (Crypto.signMessage A.P k v b).isSome

/-- The message that a handler of the gateway wrote to the admin. -/
def reply : List GatewayAdmin.Out → Option Msg
  | .message m :: _ => some m
  | .refresh :: os => reply os
  | _ => none

/-- The gateway `n` is at the admin address in the record. -/
structure Behind (A : Env) (r : Record) (G : GatewayAdmin.Env S) (n : Node S) : Prop where
  served : ∀ m, A.exchange r.netAdmin m = (GatewayAdmin.kindOf m.type).bind (fun k => reply (GatewayAdmin.serve G n k m).2)
  prims : G.P = A.P
  correct : Crypto.Correct A.P
  protocol : Codecs.ProtocolOk G.pr
  adminProtocol : Codecs.ProtocolOk A.pr

/-- The gateway after the messages that a call sent. -/
def received (G : GatewayAdmin.Env S) (n : Node S) : Sent → Node S
  | [] => n
  | (_, m) :: ms =>
    match GatewayAdmin.kindOf m.type with
    | none => received G n ms
    | some k => received G (GatewayAdmin.serve G n k m).1 ms

end FcRetrieval.Admin

namespace FcRetrieval.Admin
open FcRetrieval.Message (Msg)
open FcRetrieval.Register (Record)

/-- The node that a call is about, with the nodes in use. -/
def GatewayCall.target (active : Active) : GatewayCall → Option Record
  | .initialise r _ _ => some r
  | .initialiseV2 r _ _ _ _ _ => some r
  | .forceUpdate id => mget active (Ids.toStr id)
  | .listOffers id => mget active (Ids.toStr id)
  | .updateFeatures r _ => some r

/-- The codes of the request and of the answer that the call stands for. -/
def GatewayCall.codes : GatewayCall → Int × Int
  | .initialise .. => (400, 401)
  | .initialiseV2 .. => (412, 401)
  | .forceUpdate _ => (406, 407)
  | .listOffers _ => (410, 411)
  | .updateFeatures .. => (408, 409)

def ProviderCall.target (active : Active) : ProviderCall → Option Record
  | .initialise r _ _ => some r
  | .initialiseV2 r _ _ _ _ _ => some r
  | .publishGroup id .. => mget active (Ids.toStr id)
  | .publishDht id .. => mget active (Ids.toStr id)
  | .forceUpdate id => mget active (Ids.toStr id)

def ProviderCall.codes : ProviderCall → Int × Int
  | .initialise .. => (500, 501)
  | .initialiseV2 .. => (510, 501)
  | .publishGroup .. => (502, 503)
  | .publishDht .. => (504, 505)
  | .forceUpdate _ => (508, 509)

/-- One exchange with the node of the record: a request with the first code was sent to it, and the answer that was read has the second code
and is signed with the key in the record. -/
def Confirmed (E : Env) (r : Record) (codes : Int × Int) (sent : Sent) : Prop :=
  ∃ m a, sent = [(r.netAdmin, m)] ∧ m.type = codes.1 ∧ E.exchange r.netAdmin m = some a ∧ a.type = codes.2 ∧ SignedBy E.P r a

/-- A history of calls, each in its own circumstances: the nodes in use after it. -/
def gatewayRun (active : Active) : List (Env × GatewayCall) → Active
  | [] => active
  | (E, c) :: h => gatewayRun (gatewayCall E active c).1 h

def providerRun (active : Active) : List (Env × ProviderCall) → Active
  | [] => active
  | (E, c) :: h => providerRun (providerCall E active c).1 h

end FcRetrieval.Admin
