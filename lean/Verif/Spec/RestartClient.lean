import Verif.Spec.Restart
import Verif.Spec.Journey
/-!
# Specification vocabulary for the clients of a restarted gateway
-/

namespace FcRetrieval.Restart
open FcRetrieval.Ids (Id)
open FcRetrieval.Message (Msg)

/-- Whatever these requests brought in the name of the provider is signed with the key that the client's register has for it. -/
def Own {Sig S : Type} (C : Client.Env S) (pid : Option Id) (reqs : List (GatewayAdmin.Env Sig × GatewayLife.Request × Msg)) : Prop :=
  ∀ e ∈ reqs, ∀ o, GatewayLife.Brings e o → o.providerID = pid →
    ∃ p r k, o.providerID = some p ∧ C.provider p = some r ∧ Crypto.decodePublicKey r.signingKey = .ok k ∧
      Crypto.verifyMessage C.P k o.signature (utf8Bytes (render (Offer.signJson p o.merkleRoot o.price o.expiry o.qos))) = some true

end FcRetrieval.Restart
