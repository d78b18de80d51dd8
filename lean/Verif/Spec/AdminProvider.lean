import Verif.Spec.Admin
import Verif.Spec.Provider
import Verif.Model.ProviderMain
/-!
# Specification vocabulary for the provider admin library and a provider together
-/

namespace FcRetrieval.Admin
open FcRetrieval.Message (Msg)
open FcRetrieval.Register (Record)
open FcRetrieval.Provider (Core)

/-- The message that a handler of the provider wrote to the admin. -/
def answer : List Provider.Out → Option Msg
  | .message m :: _ => some m
  | .asked _ _ :: os => answer os
  | .confirmed _ _ :: os => answer os
  | .refresh :: os => answer os
  | _ => none

/-- What is read at the admin address of the provider `c` after a message. -/
def atProvider (E : Provider.Env) (c : Core) (m : Msg) : Option Msg :=
  (Provider.adminKindOf m.type).bind (fun k => answer (Provider.serve E c k m).2)

/-- The provider `c` is at the admin address in the record. -/
structure BehindProvider (A : Env) (r : Record) (E : Provider.Env) (c : Core) : Prop where
  served : ∀ m, A.exchange r.netAdmin m = atProvider E c m
  prims : E.P = A.P
  hash : E.H = A.H
  correct : Crypto.Correct A.P
  protocol : Codecs.ProtocolOk E.pr
  adminProtocol : Codecs.ProtocolOk A.pr

/-- The circumstances of a running provider, as in `Provider.Sane`: it always uses the same hash, Go visits every entry of a map once, and protocol
numbers and messages read from the network are in the range of their types. -/
def SaneWorld (H : Merkle.Hash) (E : Provider.Env) : Prop :=
  E.H = H ∧ (∀ dm, (E.order dm).Perm dm) ∧ (∀ l, (E.orderSent l).Perm l) ∧ Codecs.ProtocolOk E.pr ∧
  ∀ n gid m r, E.exchange n gid m = some r → Message.InRange r

/-- The provider after the messages that a call sent, and what was seen of it. -/
def providerAfter (E : Provider.Env) (c : Core) : Sent → Core × List Provider.Out
  | [] => (c, [])
  | (_, m) :: ms =>
    match Provider.adminKindOf m.type with
    | none => providerAfter E c ms
    | some k =>
      let s := Provider.serve E c k m
      let l := providerAfter E s.1 ms
      (l.1, s.2 ++ l.2)

end FcRetrieval.Admin
