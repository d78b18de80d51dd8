import Verif.Spec.AdminProvider
import Verif.Spec.Gateway
/-!
# Specification vocabulary for a gateway that lists the offers of a provider
-/

namespace FcRetrieval.Listing
open FcRetrieval.Ids (Id)
open FcRetrieval.Crypto (KeyPair)
open FcRetrieval.Message (Msg)
open FcRetrieval.Offer (CidOffer)

variable {Sig : Type}

/-- The message that a provider writes in answer to a request. -/
def written : List Provider.Out → Option Msg
  | .message m :: _ => some m
  | _ => none

/-- `pub` is the public part of the private key `k`. -/
def Matches (P : Crypto.Prims) (pub k : KeyPair) : Prop :=
  Crypto.PrivateKey k ∧ pub.alg = Crypto.sigAlg ∧ Crypto.publicPart P pub = Crypto.publicPart P k

/-- At the address of `pid` is a provider that lived through the history `hist`.  The register of the gateway has the public part of the key of the
provider, whose admin never gave it another one, and that of the provider has the public part of the key `gkey` of the gateway `gid`. -/
structure Honest (E : Gateway.Env Sig) (gid : Id) (gkey : KeyPair) (pid : Id) (PE : Provider.Env) (hist : List (Provider.Env × Provider.Kind × Msg)) : Prop where
  served : ∀ m, m.type = 200 → E.exchange pid m = written (Provider.serve PE (Provider.serveAll Provider.newCore hist).1 .listDht m).2
  prims : PE.P = E.P
  world : Admin.SaneWorld E.H PE
  sane : ∀ e ∈ hist, Provider.Sane E.H e ∧ e.1.P = E.P
  signs : Provider.CanSign PE (Provider.serveAll Provider.newCore hist).1
  registered : ∃ rec pk, E.provider pid = some rec ∧ Crypto.decodePublicKey rec.signingKey = .ok pk ∧
    ∀ h1 h2, hist = h1 ++ h2 → ∀ k v, (Provider.serveAll Provider.newCore h1).1.key = some (k, v) → Matches E.P pk k
  known : ∃ gk, Provider.Registered PE gid gk ∧ Matches E.P gk gkey

/-- The offers of the provider between two CIDs, as its store gives them (C20: unexpired, at most 500). -/
def Holds (PE : Provider.Env) (pc : Provider.Core) (lo hi : Id) (offers : List CidOffer) : Prop :=
  ∃ mgr l found, OfferMgr.getDhtRange PE.H512 (Provider.deref pc.heap) PE.order PE.now pc.offers lo hi 500 = .ok (mgr, l, found) ∧
    offers = if found then l else []

/-- The provider has an acknowledgement, from whichever gateway, of an offer for the CID. -/
def AckedBefore (pc : Provider.Core) (cid : Id) : Prop := (mget pc.acks (Ids.toStr cid)).isSome

/-- What the gateway gets from the providers of its register, one after the other: nothing from a record without an identifier or from a provider
that does not answer, and from the others, which are honest, the offers they hold. -/
inductive Answers (E : Gateway.Env Sig) (gid : Id) (gkey : KeyPair) (lo hi : Id) : List Register.Record → List CidOffer → Prop where
  | none : Answers E gid gkey lo hi [] []
  | malformed (r : Register.Record) (rs : List Register.Record) (offers : List CidOffer) : Ids.fromHex r.nodeID = .none →
      Answers E gid gkey lo hi rs offers → Answers E gid gkey lo hi (r :: rs) offers
  | silent (r : Register.Record) (rs : List Register.Record) (offers : List CidOffer) (pid : Id) : Ids.fromHex r.nodeID = some pid →
      (∀ m, E.exchange pid m = .none) → Answers E gid gkey lo hi rs offers → Answers E gid gkey lo hi (r :: rs) offers
  | honest (r : Register.Record) (rs : List Register.Record) (mine offers : List CidOffer) (pid : Id) (PE : Provider.Env)
      (hist : List (Provider.Env × Provider.Kind × Msg)) : Ids.fromHex r.nodeID = some pid → Honest E gid gkey pid PE hist →
      Holds PE (Provider.serveAll Provider.newCore hist).1 lo hi mine → Answers E gid gkey lo hi rs offers → Answers E gid gkey lo hi (r :: rs) (mine ++ offers)

end FcRetrieval.Listing
