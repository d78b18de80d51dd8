import Verif.Spec.ClientGateway
import Verif.Lemmas.ClientGateways
import Verif.Props.Message
/-! Lemmas about a client and a gateway. -/
set_option linter.unusedSimpArgs false

namespace FcRetrieval.Client
open FcRetrieval.Ids (Id)
open FcRetrieval.Message (Msg)
open FcRetrieval.Register (Record)
open FcRetrieval.Wire (Codec encode decode)
open FcRetrieval.Codecs
open FcRetrieval.Gateway (res_ok_of_bind ofOption_ok verify_snd)

variable {Sig S : Type}

/-- What a gateway behind the record answers is signed with the registered key. -/
theorem Behind.respond {E : Env Sig} {r : Record} {n : Nat} {G : Gateway.Env S} {g : Gateway.Core S} (h : Behind E r n G g) {α : Type} {codec : Codec α}
    {b1 b2 : Gateway.Out S} {a : α} (hd : Delivers codec G.pr a) :
    ∃ m', Gateway.respond G g codec b1 b2 a = [.message m'] ∧ decode codec m' = .ok a ∧ SignedBy E r m' := by
  obtain ⟨m, he, ht, -, -, hsig⟩ := hd
  obtain ⟨k, hk, hk1, hk2⟩ := h.public_
  unfold Gateway.respond
  rw [he]
  obtain ⟨sig, hs⟩ := Option.isSome_iff_exists.1 (h.signs (Message.toSign m))
  have hsign : Message.sign G.P g.key g.keyVersion m = ({ m with signature := sig }, true) := by
    unfold Message.sign
    rw [hs]
  have hv := (Message.C27_signed_verifies G.P (h.prims ▸ h.correct) g.key k g.keyVersion h.private_ ⟨hk1, by rw [h.prims, hk2]⟩ m _ hsign).1
  simp only [hsign]
  refine ⟨_, rfl, (hsig sig).2, k, hk, ?_⟩
  have := verify_snd.1 hv
  rwa [h.prims] at this

end FcRetrieval.Client
