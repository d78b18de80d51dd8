import Verif.Lemmas.AdminExamples
import Verif.Props.Journey
/-!
# A gateway that has not been set up
-/
set_option linter.unusedSimpArgs false

namespace FcRetrieval.GatewayAdmin
open FcRetrieval.Ids (Id)
open FcRetrieval.Message (Msg)
open FcRetrieval.Wire (decode)
open FcRetrieval.Codecs
open FcRetrieval.Gateway (Authentic)

variable {S : Type}

/-- C97: whatever it holds, a gateway that has no key crashes when any registered provider publishes, even nothing. -/
theorem C97_fresh_dht_refuted (E : Env S) (n : Node S) (m : Msg) (p : Id) (nonce : Int) (k : Crypto.KeyPair)
    (hd : decode (providerPublishDHTOfferRequest E.H) m = .ok (some p, nonce, [])) (ha : Authentic E.toEnv E.provider (some p) m k) :
    (freshPublishDht E n m).2 = [.panic] := by
  unfold freshPublishDht
  simp only [hd, Gateway.senderKey_ok.2 ha, Gateway.storeAll]

theorem exSigned {α : Type} {codec : Wire.Codec α} {a : α} (h : Delivers codec Message.defaultProtocol a) :
    ∃ m, decode codec m = .ok a ∧ Crypto.verifyMessage Admin.keyed Admin.exPub m.signature (Message.toSign m) = some true := by
  obtain ⟨m, -, -, -, -, hsig⟩ := h
  obtain ⟨sig, -, hs⟩ := Admin.signs (Admin.keyed_signs Offer.exKey_private 1) m
  exact ⟨_, (hsig sig).2, Gateway.verify_snd.1 (Message.C27_signed_verifies Admin.keyed Admin.keyed_correct Offer.exKey Admin.exPub 1 Offer.exKey_private ⟨rfl, by decide +kernel⟩ m _ hs).1⟩

theorem exRecord_key : Crypto.decodePublicKey Gateway.exRecord.signingKey = .ok Admin.exPub := by decide +kernel

example : ∃ m, (freshPublishDht Admin.exGatewayEnv (newNode 1 2 3) m).2 = [.panic] := by
  obtain ⟨m, hm, hv⟩ := exSigned (C30_providerPublishDHTOfferRequest Merkle.toyHash Message.defaultProtocol defaultProtocolOk (some (Merkle.exId 9)) 5 []
    ⟨_, rfl, Merkle.exId_proper 9⟩ ⟨by decide, by decide⟩ (by simp) (by simp) ⟨by decide, by decide⟩)
  exact ⟨m, C97_fresh_dht_refuted Admin.exGatewayEnv _ m _ 5 Admin.exPub hm ⟨Merkle.exId 9, Gateway.exRecord, rfl, rfl, exRecord_key, hv⟩⟩

/-- C97: and it crashes when a registered gateway searches for something that it does not hold, unless the search is too late. -/
theorem C97_fresh_search_refuted (E : Env S) (n : Node S) (m : Msg) (g cid : Id) (nonce ttl : Int) (x y : List Char) (k : Crypto.KeyPair)
    (hd : decode gatewayDHTDiscoverRequest m = .ok (some g, some cid, nonce, ttl, x, y)) (ha : Authentic E.toEnv E.gateway (some g) m k) (ht : E.now ≤ ttl)
    (hc : cid.length = 32) (hn : inI64 nonce) (hpr : ProtocolOk E.pr) (hget : SqlOffer.getOffers E.H E.order E.off E.now n.db cid = .ok ([], false)) :
    (freshPeerDht E n m).2 = [.panic] := by
  obtain ⟨m', he, -⟩ := C30_gatewayDHTDiscoverResponse E.pr hpr (some cid) nonce false [] [] ⟨cid, rfl, hc⟩ hn (by simp)
  unfold freshPeerDht
  have : ¬ E.now > ttl := by omega
  simp only [hd, Gateway.senderKey_ok.2 ha, this, if_false, hget, List.map_nil, he]
example : ∃ m, (freshPeerDht Admin.exGatewayEnv (newNode 1 2 3) m).2 = [.panic] := by
  obtain ⟨m, hm, hv⟩ := exSigned (C30_gatewayDHTDiscoverRequest Message.defaultProtocol defaultProtocolOk (some (Merkle.exId 3)) (some (Merkle.exId 2)) 5 2000 [] []
    ⟨_, rfl, Merkle.exId_proper 3⟩ ⟨_, rfl, Merkle.exId_proper 2⟩ ⟨by decide, by decide⟩ ⟨by decide, by decide⟩)
  exact ⟨m, C97_fresh_search_refuted Admin.exGatewayEnv _ m _ _ 5 2000 [] [] Admin.exPub hm ⟨Merkle.exId 3, Gateway.exRecord, rfl, rfl, exRecord_key, hv⟩ (by decide)
    (Merkle.exId_proper 2) ⟨by decide, by decide⟩ defaultProtocolOk rfl⟩

/-- C97: and it crashes when a registered provider publishes a genuine group offer, after it has stored the offer. -/
theorem C97_fresh_group_refuted (E : Env S) (hw : Gateway.DbWorks E.toEnv) (n : Node S) (m : Msg) (p : Id) (nonce : Int) (o : Offer.CidOffer) (k : Crypto.KeyPair)
    (hd : decode (providerPublishGroupOfferRequest E.H) m = .ok (some p, nonce, some o)) (ha : Authentic E.toEnv E.provider (some p) m k) (hb : Offer.Built E.H o)
    (hs : Gateway.Storable E.toEnv k o) : (freshPublishGroup E n m).2 = [.panic] ∧
    SqlOffer.addGroup E.H512 (fun _ => false) n.db o = .ok ((freshPublishGroup E n m).1.db, true) := by
  obtain ⟨db', h1, -, h2⟩ := Gateway.insert_works hw hs.1 (fun _ => hb) n.db
  rw [decide_eq_true hs] at h1 h2
  have h1' : SqlOffer.addGroup E.H512 (E.dbFails o) n.db o = .ok (db', true) := h1
  unfold freshPublishGroup
  simp only [hd, Gateway.senderKey_ok.2 ha, Gateway.verify_signed.2 hs.1, h1']
  exact ⟨trivial, h2⟩

/-- The same environment as in the examples of `Props/Journey`, with what an admin needs. -/
def exFreshEnv : Env Unit := { Journey.exG2 with newPayments := fun _ _ _ => none, providers := [], cidRange := fun _ => none, proof := ⟨some [], some []⟩ }

example : ∃ m, (freshPublishGroup exFreshEnv (newNode 1 2 3) m).2 = [.panic] := by
  have hpub : Admin.exPub.alg = Crypto.sigAlg ∧ Crypto.publicPart Admin.keyed Admin.exPub = Crypto.publicPart Admin.keyed Offer.exKey := ⟨rfl, by decide +kernel⟩
  obtain ⟨m, hd, ha⟩ := Journey.exRequest (k := Offer.exKey) (pub := Admin.exPub) (i := Merkle.exId 9) (rec := Admin.exRecord) (Merkle.exId_proper 9) (by simp [Journey.exG2]) exRecord_key
    Offer.exKey_private hpub
  exact ⟨m, (C97_fresh_group_refuted exFreshEnv (fun _ _ => rfl) (newNode 1 2 3) m (Merkle.exId 9) 1 (Journey.exOfferBy Offer.exKey) Admin.exPub hd ha (Journey.exOfferBy_built _)
    (Journey.exOfferBy_storable Offer.exKey_private hpub)).1⟩

end FcRetrieval.GatewayAdmin
